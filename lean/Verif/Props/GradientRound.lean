import Verif.Lemmas.GradientRound
import Verif.Props.Lipschitz

/-!
C79: gradients in machine arithmetic.
-/
set_option autoImplicit false

namespace VGT
open VGT.EDT VGT.Spec

theorem isRotated_inj {R : Fin 3 → Fin 3 → ℝ} (hR : Orthogonal R) {v v' w : Fin 3 → ℝ} (h : IsRotated R v w) (h' : IsRotated R v' w) :
    v = v' := by
  have inv : ∀ {v : Fin 3 → ℝ}, IsRotated R v w → ∀ a, v a = R 0 a * w 0 + R 1 a * w 1 + R 2 a * w 2 := by
    intro v hv a
    have h0 := hR.1 a 0
    have h1 := hR.1 a 1
    have h2 := hR.1 a 2
    rw [hv 0, hv 1, hv 2]
    have e : R 0 a * (R 0 0 * v 0 + R 0 1 * v 1 + R 0 2 * v 2) + R 1 a * (R 1 0 * v 0 + R 1 1 * v 1 + R 1 2 * v 2) +
        R 2 a * (R 2 0 * v 0 + R 2 1 * v 1 + R 2 2 * v 2) = (R 0 a * R 0 0 + R 1 a * R 1 0 + R 2 a * R 2 0) * v 0 +
        (R 0 a * R 0 1 + R 1 a * R 1 1 + R 2 a * R 2 1) * v 1 + (R 0 a * R 0 2 + R 1 a * R 1 2 + R 2 a * R 2 2) * v 2 := by ring
    rw [e, h0, h1, h2]
    fin_cases a <;> simp
  funext a
  rw [inv h a, inv h' a]

section
variable {filled : Idx → Bool} {border : Bool} {g : SDFGrid ℝ} {r rs : ℝ → ℝ} {u η us ηs N γ : ℝ} {norm : (Fin 3 → ℝ) → ℝ}
  {interp : (Fin 3 → ℝ) → (Fin 3 → ℝ) → (Bool → Bool → Bool → ℝ) → (Fin 3 → ℝ) → ℝ} {inv : ℝ}
  {toGrid : Vec4 ℝ → Fin 3 → ℝ} {toWorld rotate : (Fin 3 → ℝ) → Fin 3 → ℝ}

/-- No component of a coarse gradient of a generated field is longer than 2. -/
theorem coarse_le_two (h : Generated filled border g) {i : IVec} {edge : Bool} {v w : Vec ℝ} (hw : g.coarse i edge = some (some w))
    (hr : IsRotated g.pose.R v w) {a : Fin 3} (ha : axisCells g.dims a ≠ 1) : |v a| ≤ 2 := by
  obtain ⟨v', hr', hv'⟩ := C60_generated h hw
  rw [isRotated_inj h.pose hr hr']
  obtain ⟨h1, h2, h3⟩ := hv' a ha
  rw [abs_le]
  cases hb : filled (cellIdx (before i a)) <;> cases hc : filled (cellIdx (after (axisCells g.dims) i a))
  · have := abs_le.1 (h1 (by rw [hb, hc])); constructor <;> linarith
  · obtain ⟨p, q⟩ := h3 hb hc
    by_cases hm : 0 < i a ∧ i a + 1 < axisCells g.dims a
    · have := p hm; constructor <;> linarith
    · have := q hm; constructor <;> linarith
  · obtain ⟨p, q⟩ := h2 hb hc
    by_cases hm : 0 < i a ∧ i a + 1 < axisCells g.dims a
    · have := p hm; constructor <;> linarith
    · have := q hm; constructor <;> linarith
  · have := abs_le.1 (h1 (by rw [hb, hc])); constructor <;> linarith

/-- A computed grid-aligned coarse gradient against that of an exactly generated field whose values differ by a relative error `ε`. -/
theorem machine_coarse {g₀ : SDFGrid ℝ} (hg0 : Generated filled border g₀) (hd : g₀.dims = g.dims) (hs0 : g₀.s = g.s)
    {ε : ℝ} (hε0 : 0 ≤ ε)
    (hnear : ∀ i, g.dims.In i → |g.data i - g₀.data i| ≤ ε * |g₀.data i| ∧ |g₀.data i| ≤ 2 * N * g.s)
    (h : RoundErr r u η) (hs : RoundErr rs us ηs) (h0 : r 0 = 0) (hu : u ≤ 1 / 1000) (hus : us ≤ 1 / 1000) (hle : u ≤ us)
    (hηle : η ≤ ηs) (hη : η ≤ u) (hηs : η ≤ u * g.s) (hηs' : η * g.s ≤ u) (hN0 : 0 ≤ N)
    {i : IVec} {edge : Bool} {v' : Fin 3 → ℝ}
    (hv' : flCoarseGrid (storedQuery r rs norm interp) (g.computed inv toGrid toWorld rotate) i edge = .value v') :
    ∃ v w, g₀.coarse i edge = some (some w) ∧ IsRotated g₀.pose.R v w ∧ ∀ a,
      (axisCells g.dims a = 1 → v' a = 0 ∧ v a = 0) ∧ |v a| ≤ 2 ∧
      |v' a - v a| ≤ 4 * N * ε + (11 / 10 * us + 11 * u) * (2 + 4 * N * ε) + 11 / 10 * (ηs / g.s) + η := by
  have hpos : 0 < g.s := by rw [← hs0]; exact hg0.pos
  obtain ⟨hi, hedge, -⟩ := flCoarseGrid_parts _ _ hv'
  have hi : CellInGrid (axisCells g.dims) i := hi
  have hedge : edge = true ∨ ¬ OnEdge (axisCells g.dims) i := hedge
  obtain ⟨w, hw⟩ := (C17_availability hg0.pos i edge).1 (by rw [hd]; exact ⟨hi, hedge⟩)
  obtain ⟨v, hrot, -, hva⟩ := C60_formula hg0.pos hw
  have hB0 : 0 ≤ 4 * N * ε + (11 / 10 * us + 11 * u) * (2 + 4 * N * ε) + 11 / 10 * (ηs / g.s) + η := by
    have := h.u0; have := hs.u0; have := h.eta0; have := hs.eta0
    positivity
  refine ⟨v, w, hw, hrot, fun a => ?_⟩
  obtain ⟨c1, c2⟩ := coarse_axis h hs h0 hu hus hle hηle hpos hη hηs hηs' hv' a
  by_cases ha : axisCells g.dims a = 1
  · have e0 := (hva a).1 (by rw [hd]; exact ha)
    have e1 := c1 ha
    refine ⟨fun _ => ⟨e1, e0⟩, by rw [e0]; norm_num, ?_⟩
    rw [e0, e1, sub_zero, abs_zero]
    exact hB0
  refine ⟨fun h1 => absurd h1 ha, coarse_le_two hg0 hw hrot (by rw [hd]; exact ha), ?_⟩
  obtain ⟨k, hk, hkk, hb⟩ := c2 ha
  have hv0 := (hva a).2 (by rw [hd]; exact ha)
  rw [hd, hs0, ← hkk] at hv0
  have hle2 := coarse_le_two hg0 hw hrot (a := a) (by rw [hd]; exact ha)
  have hk1 : 1 ≤ k := by rcases hk with rfl | rfl <;> norm_num
  have hks : 0 < k * g.s := by nlinarith
  have hsks : g.s ≤ k * g.s := by nlinarith
  obtain ⟨D, hD⟩ : ∃ D, D = stored g.data (after (axisCells g.dims) i a) - stored g.data (before i a) := ⟨_, rfl⟩
  obtain ⟨D₀, hD₀⟩ : ∃ D, D = storedAt g₀.data (after (axisCells g.dims) i a) - storedAt g₀.data (before i a) := ⟨_, rfl⟩
  rw [← hD] at hb
  rw [← hD₀] at hv0
  have hDD : |D - D₀| ≤ 4 * N * ε * g.s := by
    have near : ∀ c, CellInGrid (axisCells g.dims) c → |stored g.data c - storedAt g₀.data c| ≤ ε * (2 * N * g.s) := by
      intro c hc
      obtain ⟨h1, h2⟩ := hnear _ (cellIdx_in hc)
      exact h1.trans (mul_le_mul_of_nonneg_left h2 hε0)
    have n1 := near _ (after_in hi a)
    have n2 := near _ (before_in hi a)
    have e : D - D₀ = (stored g.data (after (axisCells g.dims) i a) - storedAt g₀.data (after (axisCells g.dims) i a)) -
        (stored g.data (before i a) - storedAt g₀.data (before i a)) := by rw [hD, hD₀]; ring
    rw [e]
    have := abs_sub (stored g.data (after (axisCells g.dims) i a) - storedAt g₀.data (after (axisCells g.dims) i a))
      (stored g.data (before i a) - storedAt g₀.data (before i a))
    linarith
  have hva' : v a = D₀ / (k * g.s) := by rw [eq_div_iff hks.ne']; exact hv0
  have hq : |D / (k * g.s) - v a| ≤ 4 * N * ε := by
    rw [hva', ← sub_div, abs_div, abs_of_pos hks, div_le_iff₀ hks]
    refine hDD.trans (mul_le_mul_of_nonneg_left hsks (by positivity))
  have hQ : |D| / (k * g.s) ≤ 2 + 4 * N * ε := by
    have e : |D| / (k * g.s) = |D / (k * g.s)| := by rw [abs_div, abs_of_pos hks]
    rw [e]
    have := abs_add_le (D / (k * g.s) - v a) (v a)
    rw [sub_add_cancel] at this
    linarith
  have hZ : ηs / (k * g.s) ≤ ηs / g.s := div_le_div_of_nonneg_left hs.eta0 hpos hsks
  have := abs_sub_le (v' a) (D / (k * g.s)) (v a)
  have hm : (11 / 10 * us + 11 * u) * (|D| / (k * g.s)) ≤ (11 / 10 * us + 11 * u) * (2 + 4 * N * ε) :=
    mul_le_mul_of_nonneg_left hQ (by have := h.u0; have := hs.u0; positivity)
  linarith

/-! ### Fine gradients -/

theorem orthogonal_entry {R : Fin 3 → Fin 3 → ℝ} (hR : Orthogonal R) (a b : Fin 3) : |R a b| ≤ 1 := by
  have h := hR.1 b b
  rw [if_pos rfl] at h
  have sq : ∀ x : ℝ, x * x ≤ 1 → |x| ≤ 1 := fun x hx => by rw [abs_le]; constructor <;> nlinarith
  refine sq _ ?_
  have h0 := mul_self_nonneg (R 0 b)
  have h1 := mul_self_nonneg (R 1 b)
  have h2 := mul_self_nonneg (R 2 b)
  fin_cases a
  · show R 0 b * R 0 b ≤ 1
    linarith
  · show R 1 b * R 1 b ≤ 1
    linarith
  · show R 2 b * R 2 b ≤ 1
    linarith

/-- Moving a point along a world axis moves no grid coordinate further. -/
theorem frame_shift {R : Fin 3 → Fin 3 → ℝ} {t q q' x x' : Fin 3 → ℝ} (hR : Orthogonal R) (h : InFrame R t q x) (h' : InFrame R t q' x')
    {a : Fin 3} (hoff : ∀ c, c ≠ a → x' c = x c) (b : Fin 3) : |q' b - q b| ≤ |x' a - x a| := by
  have e : q' b - q b = R a b * (x' a - x a) := by
    have inv : ∀ {q x : Fin 3 → ℝ}, InFrame R t q x → q b = R 0 b * (x 0 - t 0) + R 1 b * (x 1 - t 1) + R 2 b * (x 2 - t 2) := by
      intro q x hq
      have h0 := hR.1 b 0
      have h1 := hR.1 b 1
      have h2 := hR.1 b 2
      rw [hq 0, hq 1, hq 2]
      have e : R 0 b * (R 0 0 * q 0 + R 0 1 * q 1 + R 0 2 * q 2 + t 0 - t 0) + R 1 b * (R 1 0 * q 0 + R 1 1 * q 1 + R 1 2 * q 2 + t 1 - t 1) +
          R 2 b * (R 2 0 * q 0 + R 2 1 * q 1 + R 2 2 * q 2 + t 2 - t 2) = (R 0 b * R 0 0 + R 1 b * R 1 0 + R 2 b * R 2 0) * q 0 +
          (R 0 b * R 0 1 + R 1 b * R 1 1 + R 2 b * R 2 1) * q 1 + (R 0 b * R 0 2 + R 1 b * R 1 2 + R 2 b * R 2 2) * q 2 := by ring
      rw [e, h0, h1, h2]
      fin_cases b <;> simp
    rw [inv h, inv h']
    fin_cases a
    · rw [hoff 1 (by decide), hoff 2 (by decide)]; dsimp only [Fin.zero_eta]; ring
    · rw [hoff 0 (by decide), hoff 2 (by decide)]; dsimp only [Fin.mk_one]; ring
    · rw [hoff 0 (by decide), hoff 1 (by decide)]
      show _ = R 2 b * (x' 2 - x 2)
      ring
  rw [e, abs_mul]
  exact mul_le_of_le_one_left (abs_nonneg _) (orthogonal_entry hR a b)

theorem four_sqrt3 : 4 * Real.sqrt 3 ≤ 7 := by
  have : Real.sqrt 3 ≤ 7 / 4 := by
    rw [Real.sqrt_le_left (by norm_num)]
    norm_num
  linarith

/-- The exact fine gradient where both neighbours are in the grid. -/
theorem fine_central {g₀ : SDFGrid ℝ} (hs : 0 < g₀.s) (hP : Orthogonal g₀.pose.R) {p : Vec ℝ} {window : ℝ} (hw : 0 < |window|)
    (hp : WorldIn (axisCells g₀.dims) g₀.s g₀.pose.R g₀.pose.t p) {em ep : Fin 3 → ℝ}
    (hm : ∀ a, g₀.estimate (point4 (moved p a (-|window|))) = some (some (em a)))
    (hq : ∀ a, g₀.estimate (point4 (moved p a |window|)) = some (some (ep a))) :
    g₀.fine p window = .value fun a => (ep a - em a) / (2 * |window|) := by
  have hax : ∀ a, g₀.fineAxis p |window| a = .value ((ep a - em a) / (2 * |window|)) := by
    intro a
    obtain ⟨c, m, q, hc, hm', hq', he⟩ := fineAxis_cases g₀ hs hP p |window| a
    have hc' := (estimate_isSome hs hP hc).2 hp
    obtain ⟨c, rfl⟩ := Option.isSome_iff_exists.1 hc'
    have e1 : some (some (em a)) = some m := (hm a).symm.trans hm'
    have e2 : some (some (ep a)) = some q := (hq a).symm.trans hq'
    cases e1
    cases e2
    rw [he]
    unfold axisFine fineDiv
    dsimp only
    have e3 : p a + |window| - (p a - |window|) = 2 * |window| := by ring
    rw [e3, if_neg (by positivity)]
  unfold SDFGrid.fine
  rw [if_pos ((indexOf_worldIn hs hP).2 hp), hax, hax, hax]
  unfold fine3
  dsimp only
  congr 1
  funext a
  fin_cases a <;> rfl

/-- A computed fine gradient against that of an exactly generated field, where there is room for both neighbours. -/
theorem machine_fine {g₀ : SDFGrid ℝ} (hg0 : Generated filled border g₀) (hd : g₀.dims = g.dims) (hs0 : g₀.s = g.s)
    (hP : g₀.pose = g.pose) {ε : ℝ} (hε0 : 0 ≤ ε) (hε1 : ε ≤ 1 / 4)
    (hnear : ∀ i, g.dims.In i → |g.data i - g₀.data i| ≤ ε * |g₀.data i| ∧ |g₀.data i| ≤ 2 * N * g.s)
    (h : Precise r u η g.s N) (hacc : Accurate interp r u g.s N γ) (hγ : 0 ≤ γ)
    (hN : ∀ a, (axisCells g.dims a : ℝ) ≤ N) (hinv : |inv - 1 / g.s| ≤ 2 * u / g.s)
    {p q : Fin 3 → ℝ} (hq : InFrame g.pose.R g.pose.t q p) {window δ δ' : ℝ} (hw : 0 < |window|) (hηw : η ≤ u * |window|)
    (hround : ∀ a, |r (p a - |window|) - (p a - |window|)| ≤ δ' ∧ |r (p a + |window|) - (p a + |window|)| ≤ δ')
    (hδ' : δ' ≤ 9 / 100 * |window|)
    (hloc : ∀ x y : Fin 3 → ℝ, InFrame g.pose.R g.pose.t y x → (∀ a, |x a - p a| ≤ 2 * |window|) → ∀ a, |toGrid ⟨x, 1⟩ a - y a| ≤ δ)
    (hroom : ∀ a, 2 * |window| + δ + 5 * (u * N) * g.s ≤ q a ∧ q a + (2 * |window| + δ + 5 * (u * N) * g.s) < axisCells g.dims a * g.s) :
    ∃ v' v, flFine (roundedQuery r norm interp) (g.computed inv toGrid toWorld rotate) p window = .value v' ∧
      g₀.fine p window = .value v ∧ ∀ a, |v' a - v a| ≤
        (9 / 8 * ((3 * (3780 * (u * N) + 101 / 100 * γ) + 54 * ε) * (N * g.s)) + 252 * (u * N) * g.s + 16 * δ + 24 * δ') / |window| + 70 * u := by
  obtain ⟨w, hwe⟩ : ∃ w, w = |window| := ⟨_, rfl⟩
  rw [← hwe] at hw hηw hround hδ' hloc hroom ⊢
  have hspos := h.s0
  have hk := h.k0
  have hk' : 0 ≤ 5 * (u * N) * g.s := by positivity
  have hδ0 : 0 ≤ δ := (abs_nonneg _).trans (hloc p q hq (by intro a; rw [sub_self, abs_zero]; positivity) 0)
  have hδ'0 : 0 ≤ δ' := (abs_nonneg _).trans (hround 0).1
  have hRP : Orthogonal g.pose.R := by rw [← hP]; exact hg0.pose
  have hNs : ∀ a, (axisCells g.dims a : ℝ) * g.s ≤ N * g.s := fun a => mul_le_mul_of_nonneg_right (hN a) hspos.le
  obtain ⟨E₀, hE₀⟩ : ∃ E, E = (3 * (3780 * (u * N) + 101 / 100 * γ) + 54 * ε) * (N * g.s) := ⟨_, rfl⟩
  rw [← hE₀]
  have hp : WorldIn (axisCells g.dims) g.s g.pose.R g.pose.t p := ⟨q, hq, fun a => ⟨by linarith [(hroom a).1], by linarith [(hroom a).2]⟩⟩
  -- one sample: `X` is the intended place, `x` the computed one
  have sample : ∀ (a : Fin 3) (σ : ℝ), |σ| ≤ w → |r (p a + σ) - (p a + σ)| ≤ δ' → ∃ e' e,
      flEstimate (roundedQuery r norm interp) (g.computed inv toGrid toWorld rotate)
        ⟨fun b => if b = a then r (p a + σ) else p b, 1⟩ = .value e' ∧
      g₀.estimate (point4 (moved p a σ)) = some (some e) ∧ |e' - e| ≤ E₀ + 14 * (16 * (u * N) * g.s + δ + δ') := by
    intro a σ hσ hr
    obtain ⟨y, hy⟩ := exists_frame hRP (moved p a σ)
    obtain ⟨z, hz⟩ := exists_frame hRP (fun b => if b = a then r (p a + σ) else p b)
    have s1 : ∀ b, |y b - q b| ≤ w := by
      intro b
      refine (frame_shift hRP hq hy (a := a) (fun c hc => by unfold moved; rw [Function.update_of_ne hc]) b).trans ?_
      unfold moved
      rw [Function.update_self, add_sub_cancel_left]
      exact hσ
    have s2 : ∀ b, |z b - y b| ≤ δ' := by
      intro b
      refine (frame_shift hRP hy hz (a := a) (fun c hc => by unfold moved; rw [Function.update_of_ne hc, if_neg hc]) b).trans ?_
      unfold moved
      rw [Function.update_self, if_pos rfl]
      exact hr
    have s3 : ∀ b, |toGrid ⟨fun b => if b = a then r (p a + σ) else p b, 1⟩ b - z b| ≤ δ := by
      refine hloc _ z hz fun b => ?_
      by_cases hb : b = a
      · subst hb
        rw [if_pos rfl]
        have := abs_add_le (r (p b + σ) - (p b + σ)) σ
        rw [show r (p b + σ) - (p b + σ) + σ = r (p b + σ) - p b by ring] at this
        linarith
      · rw [if_neg hb, sub_self, abs_zero]
        positivity
    have hin : InGridBox (axisCells g.dims) g.s y := by
      intro b
      have := abs_le.1 (s1 b)
      exact ⟨by linarith [(hroom b).1], by linarith [(hroom b).2]⟩
    have hT : ∀ b, q b - w - δ' - δ ≤ toGrid ⟨fun b => if b = a then r (p a + σ) else p b, 1⟩ b ∧
        toGrid ⟨fun b => if b = a then r (p a + σ) else p b, 1⟩ b ≤ q b + w + δ' + δ := by
      intro b
      have := abs_le.1 (s1 b)
      have := abs_le.1 (s2 b)
      have := abs_le.1 (s3 b)
      constructor <;> linarith
    obtain ⟨e', he'⟩ := (C67_estimate_defined h hinv (norm := norm) (interp := interp) (toGrid := toGrid) (toWorld := toWorld) (rotate := rotate)
      (loc := ⟨fun b => if b = a then r (p a + σ) else p b, 1⟩) (fun b => by
        rw [abs_le]
        have := hT b
        have := hroom b
        have := hNs b
        constructor <;> linarith)).1 (fun b => by
        have := hT b
        have := hroom b
        constructor <;> linarith)
    obtain ⟨e, he⟩ := (C15_defined_in_grid hg0.pos hg0.pose (p := moved p a σ) (q := y) (by rw [hP]; exact hy)).1 (by rw [hd, hs0]; exact hin)
    obtain ⟨q', p', e₁, -, hq', hp', he₁, hb⟩ := machine_estimate_twin hg0 hd hs0 hε0 hε1 hnear h hacc hγ hN hinv he'
    refine ⟨e', e, he', he, ?_⟩
    have hlip := C59_lipschitz_everywhere hg0 he₁ he
    have hdist : dist3 p' (moved p a σ) ≤ 2 * (16 * (u * N) * g.s + δ + δ') := by
      rw [dist3_frame hg0.pose hp' (by rw [hP]; exact hy)]
      refine dist3_le_of_coords fun b => ?_
      have t1 := abs_sub_le (q' b) (toGrid ⟨fun b => if b = a then r (p a + σ) else p b, 1⟩ b) (z b)
      have t2 := abs_sub_le (q' b) (z b) (y b)
      have := hq' b
      have := s2 b
      have := s3 b
      linarith
    have h7 : 4 * Real.sqrt 3 * dist3 p' (moved p a σ) ≤ 7 * (2 * (16 * (u * N) * g.s + δ + δ')) :=
      mul_le_mul four_sqrt3 hdist (Real.sqrt_nonneg _) (by norm_num)
    have t3 := abs_sub_le e' e₁ e
    rw [← hE₀] at hb
    linarith
  have hwn : |(-w)| ≤ w := by rw [abs_neg, abs_of_pos hw]
  have hwp : |w| ≤ w := by rw [abs_of_pos hw]
  have hm := fun a => sample a (-w) hwn (by rw [← sub_eq_add_neg]; exact (hround a).1)
  have hpl := fun a => sample a w hwp (hround a).2
  choose em' em hm1 hm2 hm3 using hm
  choose ep' ep hp1 hp2 hp3 using hpl
  -- the point itself
  obtain ⟨c', hc'⟩ : ∃ c', flEstimate (roundedQuery r norm interp) (g.computed inv toGrid toWorld rotate) ⟨p, 1⟩ = .value c' := by
    have hT : ∀ b, |toGrid ⟨p, 1⟩ b - q b| ≤ δ := hloc p q hq (by intro a; rw [sub_self, abs_zero]; positivity)
    refine (C67_estimate_defined h hinv (norm := norm) (interp := interp) (toGrid := toGrid) (toWorld := toWorld) (rotate := rotate)
      (loc := ⟨p, 1⟩) (fun b => by
        rw [abs_le]
        have := abs_le.1 (hT b)
        have := hroom b
        have := hNs b
        constructor <;> linarith)).1 (fun b => by
        have := abs_le.1 (hT b)
        have := hroom b
        constructor <;> linarith)
  -- the computed gradient
  obtain ⟨v', hv'⟩ : ∃ v', flFine (roundedQuery r norm interp) (g.computed inv toGrid toWorld rotate) p window = .value v' := by
    have idx : ∀ {loc : Vec4 ℝ} {e : ℝ}, flEstimate (roundedQuery r norm interp) (g.computed inv toGrid toWorld rotate) loc = .value e →
        CellInGrid (axisCells g.dims) (fun a => ⌊r (toGrid loc a * inv)⌋) := by
      intro loc e he
      by_contra hn
      rw [((C65_estimate (roundedQuery r norm interp) (g.computed inv toGrid toWorld rotate) loc).2.2 _ (fun _ => rfl)).1 hn] at he
      cases he
    refine (C65_fine (roundedQuery r norm interp) (g.computed inv toGrid toWorld rotate) (p := p) (nominal := window)
      (i := fun a => ⌊r (toGrid ⟨p, 1⟩ a * inv)⌋)
      (m := fun b a => ⌊r (toGrid ⟨fun c => if c = b then r (p b + -w) else p c, 1⟩ a * inv)⌋)
      (q := fun b a => ⌊r (toGrid ⟨fun c => if c = b then r (p b + w) else p c, 1⟩ a * inv)⌋)
      (fun _ => rfl) (fun b a => ?_) (fun b a => ?_)).2.1 (idx hc') fun b => .inl (idx (hm1 b))
    · rw [hwe, ← sub_eq_add_neg]; rfl
    · rw [hwe]; rfl
  refine ⟨v', _, hv', fine_central hg0.pos hg0.pose (by rw [← hwe]; exact hw) (by rw [hd, hs0, hP]; exact hp)
    (by rw [← hwe]; exact hm2) (by rw [← hwe]; exact hp2), fun a => ?_⟩
  have hva := flFine_parts _ _ hv' a
  have e1 : flEstimate (roundedQuery r norm interp) (g.computed inv toGrid toWorld rotate)
      (flMoved (roundedQuery r norm interp) p a ((roundedQuery r norm interp).sub (p a) ((roundedQuery r norm interp).abs window))) = .value (em' a) := by
    have := hm1 a
    rw [← sub_eq_add_neg, hwe] at this
    exact this
  have e2 : flEstimate (roundedQuery r norm interp) (g.computed inv toGrid toWorld rotate)
      (flMoved (roundedQuery r norm interp) p a ((roundedQuery r norm interp).add (p a) ((roundedQuery r norm interp).abs window))) = .value (ep' a) := by
    have := hp1 a
    rw [hwe] at this
    exact this
  have e0 : flEstimate (roundedQuery r norm interp) (g.computed inv toGrid toWorld rotate) ⟨p, (roundedQuery r norm interp).one⟩ = .value c' := hc'
  rw [e0, e1, e2] at hva
  have hv2 : v' a = r (r (ep' a - em' a) / r (r (p a + w) - r (p a - w))) := by
    rw [hwe]
    exact (Option.some.inj hva).symm
  rw [hv2, ← hwe]
  have hL : |ep a - em a| ≤ 7 * (2 * w) := by
    refine (C59_lipschitz_everywhere hg0 (hp2 a) (hm2 a)).trans ?_
    have : dist3 (moved p a w) (moved p a (-w)) = 2 * w := by
      unfold dist3 moved
      have e : (Function.update p a (p a + w) 0 - Function.update p a (p a + -w) 0) ^ 2 +
          (Function.update p a (p a + w) 1 - Function.update p a (p a + -w) 1) ^ 2 +
          (Function.update p a (p a + w) 2 - Function.update p a (p a + -w) 2) ^ 2 = (2 * w) ^ 2 := by
        fin_cases a <;> simp <;> ring
      rw [e, Real.sqrt_sq (by positivity)]
    rw [this]
    exact mul_le_mul_of_nonneg_right four_sqrt3 (by positivity)
  have hΔ : |r (p a + w) - r (p a - w) - 2 * w| ≤ 2 * δ' := by
    have t := abs_sub (r (p a + w) - (p a + w)) (r (p a - w) - (p a - w))
    rw [show r (p a + w) - (p a + w) - (r (p a - w) - (p a - w)) = r (p a + w) - r (p a - w) - 2 * w by ring] at t
    have := (hround a).1
    have := (hround a).2
    linarith
  have hre : RoundErr r u η := ⟨h.err, h.u0, h.eta0⟩
  have hu : u ≤ 1 / 1000 := h.u_le.trans h.small
  have huw : 0 ≤ u * w := mul_nonneg h.u0 hw.le
  have := hre.slope hu (e1 := ep a) (e2 := em a) (e1' := ep' a) (e2' := em' a) (Δ := r (p a + w) - r (p a - w)) (H := 2 * w) (L := 7)
    (E := E₀ + 14 * (16 * (u * N) * g.s + δ + δ')) (δ := δ') (by positivity) (hp3 a) (hm3 a) hL hΔ (by linarith) (by linarith) h.eta (by norm_num)
  refine this.trans ?_
  have e : (9 / 4 * (E₀ + 14 * (16 * (u * N) * g.s + δ + δ')) + 9 / 4 * 7 * δ') / (2 * w) + 10 * u * 7 =
      (9 / 8 * E₀ + 252 * (u * N) * g.s + 63 / 4 * δ + 189 / 8 * δ') / w + 70 * u := by
    field_simp
    ring
  rw [e]
  have : (9 / 8 * E₀ + 252 * (u * N) * g.s + 63 / 4 * δ + 189 / 8 * δ') / w ≤ (9 / 8 * E₀ + 252 * (u * N) * g.s + 16 * δ + 24 * δ') / w :=
    div_le_div_of_nonneg_right (by linarith) hw.le
  linarith

/-- No computed fine gradient is much longer than an exact one can be, with one neighbour or two. -/
theorem machine_fine_bounded {g₀ : SDFGrid ℝ} (hg0 : Generated filled border g₀) (hd : g₀.dims = g.dims) (hs0 : g₀.s = g.s)
    (hP : g₀.pose = g.pose) {ε : ℝ} (hε0 : 0 ≤ ε) (hε1 : ε ≤ 1 / 4)
    (hnear : ∀ i, g.dims.In i → |g.data i - g₀.data i| ≤ ε * |g₀.data i| ∧ |g₀.data i| ≤ 2 * N * g.s)
    (h : Precise r u η g.s N) (hacc : Accurate interp r u g.s N γ) (hγ : 0 ≤ γ)
    (hN : ∀ a, (axisCells g.dims a : ℝ) ≤ N) (hinv : |inv - 1 / g.s| ≤ 2 * u / g.s)
    {p : Fin 3 → ℝ} {window δ δ' : ℝ} (hw : 0 < |window|) (hηw : η ≤ u * |window|)
    (hround : ∀ a, |r (p a - |window|) - (p a - |window|)| ≤ δ' ∧ |r (p a + |window|) - (p a + |window|)| ≤ δ')
    (hδ' : δ' ≤ 1 / 100 * |window|)
    (hloc : ∀ x y : Fin 3 → ℝ, InFrame g.pose.R g.pose.t y x → (∀ a, |x a - p a| ≤ 2 * |window|) → ∀ a, |toGrid ⟨x, 1⟩ a - y a| ≤ δ)
    {v' : Fin 3 → ℝ} (hv' : flFine (roundedQuery r norm interp) (g.computed inv toGrid toWorld rotate) p window = .value v') (a : Fin 3) :
    |v' a| ≤ 8 + 3 * ((3 * (3780 * (u * N) + 101 / 100 * γ) + 54 * ε) * (N * g.s) + 160 * (u * N) * g.s + 10 * δ) / |window| := by
  have hva := flFine_parts _ _ hv' a
  have habs : (roundedQuery r norm interp).abs window = |window| := rfl
  rw [habs] at hva
  obtain ⟨w, hwe⟩ : ∃ w, w = |window| := ⟨_, rfl⟩
  rw [← hwe] at hw hηw hround hδ' hloc hva ⊢
  have hspos := h.s0
  have hk := h.k0
  have hRP : Orthogonal g.pose.R := by rw [← hP]; exact hg0.pose
  obtain ⟨y0, hy0⟩ := exists_frame hRP p
  have hδ0 : 0 ≤ δ := (abs_nonneg _).trans (hloc p y0 hy0 (by intro a; rw [sub_self, abs_zero]; positivity) 0)
  have hδ'0 : 0 ≤ δ' := (abs_nonneg _).trans (hround 0).1
  obtain ⟨E₀, hE₀⟩ : ∃ E, E = (3 * (3780 * (u * N) + 101 / 100 * γ) + 54 * ε) * (N * g.s) := ⟨_, rfl⟩
  rw [← hE₀]
  have hE0 : 0 ≤ E₀ := by
    rw [hE₀]
    have : 0 ≤ N * g.s := mul_nonneg (by linarith [h.one_le]) hspos.le
    positivity
  have hre : RoundErr r u η := ⟨h.err, h.u0, h.eta0⟩
  have hu : u ≤ 1 / 1000 := h.u_le.trans h.small
  have huw : 0 ≤ u * w := mul_nonneg h.u0 hw.le
  -- an answer at a sample and the exact field near it
  have sample : ∀ (x e' : ℝ), |x - p a| ≤ 2 * w → answered (flEstimate (roundedQuery r norm interp) (g.computed inv toGrid toWorld rotate)
      (flMoved (roundedQuery r norm interp) p a x)) = some e' → ∃ P e, g₀.estimate (point4 P) = some (some e) ∧ |e' - e| ≤ E₀ ∧
      dist3 P (fun b => if b = a then x else p b) ≤ 2 * (16 * (u * N) * g.s + δ) := by
    intro x e' hx he
    have he' : flEstimate (roundedQuery r norm interp) (g.computed inv toGrid toWorld rotate) (flMoved (roundedQuery r norm interp) p a x) = .value e' := by
      rcases hh : flEstimate (roundedQuery r norm interp) (g.computed inv toGrid toWorld rotate) (flMoved (roundedQuery r norm interp) p a x) with _ | _ | _ | z
      · rw [hh] at he; cases he
      · rw [hh] at he; cases he
      · rw [hh] at he; cases he
      · rw [hh] at he; cases he; rfl
    obtain ⟨q', p', e₁, -, hq', hp', he₁, hb⟩ := machine_estimate_twin hg0 hd hs0 hε0 hε1 hnear h hacc hγ hN hinv he'
    rw [← hE₀] at hb
    obtain ⟨z, hz⟩ := exists_frame hRP (fun b => if b = a then x else p b)
    refine ⟨p', e₁, he₁, hb, ?_⟩
    rw [dist3_frame hg0.pose hp' (by rw [hP]; exact hz)]
    refine dist3_le_of_coords fun b => ?_
    have s3 : |toGrid (flMoved (roundedQuery r norm interp) p a x) b - z b| ≤ δ := by
      refine hloc _ z hz (fun c => ?_) b
      by_cases hc : c = a
      · subst hc; rw [if_pos rfl]; exact hx
      · rw [if_neg hc, sub_self, abs_zero]; positivity
    have t1 := abs_sub_le (q' b) (toGrid (flMoved (roundedQuery r norm interp) p a x) b) (z b)
    have := hq' b
    linarith
  -- a pair of samples
  have pair : ∀ (x1 x2 e1' e2' H : ℝ), w ≤ H → |x1 - p a| ≤ 2 * w → |x2 - p a| ≤ 2 * w → |x1 - x2 - H| ≤ 2 * δ' →
      answered (flEstimate (roundedQuery r norm interp) (g.computed inv toGrid toWorld rotate) (flMoved (roundedQuery r norm interp) p a x1)) = some e1' →
      answered (flEstimate (roundedQuery r norm interp) (g.computed inv toGrid toWorld rotate) (flMoved (roundedQuery r norm interp) p a x2)) = some e2' →
      |r (r (e1' - e2') / r (x1 - x2))| ≤ 8 + 3 * (E₀ + 160 * (u * N) * g.s + 10 * δ) / w := by
    intro x1 x2 e1' e2' H hH h1 h2 h12 he1 he2
    obtain ⟨P1, e1, hP1, hb1, hd1⟩ := sample x1 e1' h1 he1
    obtain ⟨P2, e2, hP2, hb2, hd2⟩ := sample x2 e2' h2 he2
    have hHpos : 0 < H := lt_of_lt_of_le hw hH
    have hXX : dist3 (fun b => if b = a then x1 else p b) (fun b => if b = a then x2 else p b) = |x1 - x2| := by
      unfold dist3
      rw [← Real.sqrt_sq_eq_abs]
      congr 1
      fin_cases a <;> simp
    have hlen : |x1 - x2| ≤ H + 2 * δ' := by
      have := abs_add_le (x1 - x2 - H) H
      rw [sub_add_cancel, abs_of_pos hHpos] at this
      linarith
    have hdist : dist3 P1 P2 ≤ H + 2 * δ' + 4 * (16 * (u * N) * g.s + δ) := by
      have t1 := dist3_triangle P1 (fun b => if b = a then x1 else p b) P2
      have t2 := dist3_triangle (fun b => if b = a then x1 else p b) (fun b => if b = a then x2 else p b) P2
      rw [dist3_comm P2] at hd2
      linarith
    have hlip := (C59_lipschitz_everywhere hg0 hP1 hP2).trans (mul_le_mul four_sqrt3 hdist (Real.sqrt_nonneg _) (by norm_num))
    obtain ⟨T, hT⟩ : ∃ T, T = 64 * (u * N) * g.s + 4 * δ := ⟨_, rfl⟩
    have hT0 : 0 ≤ T := by rw [hT]; positivity
    obtain ⟨L, hL⟩ : ∃ L, L = 7 * (102 / 100 + T / w) := ⟨_, rfl⟩
    have hTw : 0 ≤ T / w := by positivity
    have hL1 : 1 ≤ L := by rw [hL]; linarith
    have hLH : |e1 - e2| ≤ L * H := by
      refine hlip.trans ?_
      have a1 : T ≤ T / w * H := by
        rw [div_mul_eq_mul_div, le_div_iff₀ hw]
        exact mul_le_mul_of_nonneg_left hH hT0
      have a2 : L * H = 7 * (102 / 100 * H) + 7 * (T / w * H) := by rw [hL]; ring
      rw [a2]
      linarith
    have huH : u * w ≤ u * H := mul_le_mul_of_nonneg_left hH h.u0
    have hsl := hre.slope hu (Δ := x1 - x2) (δ := δ') hHpos hb1 hb2 hLH h12 (by linarith) (by linarith) h.eta hL1
    have hq : |(e1 - e2) / H| ≤ L := by
      rw [abs_div, abs_of_pos hHpos, div_le_iff₀ hHpos]
      exact hLH
    have b1 : (9 / 4 * E₀ + 9 / 4 * L * δ') / H ≤ 9 / 4 * (E₀ / w) + 9 / 400 * L := by
      have c1 : (9 / 4 * E₀ + 9 / 4 * L * δ') / H ≤ (9 / 4 * E₀ + 9 / 4 * L * δ') / w :=
        div_le_div_of_nonneg_left (by positivity) hw hH
      have c2 : (9 / 4 * E₀ + 9 / 4 * L * δ') / w = 9 / 4 * (E₀ / w) + 9 / 4 * L * (δ' / w) := by ring
      have c3 : δ' / w ≤ 1 / 100 := by rw [div_le_iff₀ hw]; exact hδ'
      have c4 : 9 / 4 * L * (δ' / w) ≤ 9 / 4 * L * (1 / 100) := mul_le_mul_of_nonneg_left c3 (by linarith)
      linarith
    have b2 : 10 * u * L ≤ 1 / 100 * L := by
      have : u * L ≤ 1 / 1000 * L := mul_le_mul_of_nonneg_right hu (by linarith)
      linarith
    have t := abs_add_le (r (r (e1' - e2') / r (x1 - x2)) - (e1 - e2) / H) ((e1 - e2) / H)
    rw [sub_add_cancel] at t
    have e : 3 * (E₀ + 160 * (u * N) * g.s + 10 * δ) / w = 3 * (E₀ / w) + 480 * ((u * N) * g.s / w) + 30 * (δ / w) := by ring
    have eT : T / w = 64 * ((u * N) * g.s / w) + 4 * (δ / w) := by rw [hT]; ring
    have p1 : 0 ≤ E₀ / w := by positivity
    have p2 : 0 ≤ (u * N) * g.s / w := by positivity
    have p3 : 0 ≤ δ / w := by positivity
    rw [e]
    rw [eT] at hL
    linarith
  have rm := (hround a).1
  have rp := (hround a).2
  have xm : |r (p a - w) - p a| ≤ 2 * w := by
    have := abs_le.1 rm
    rw [abs_le]; constructor <;> linarith
  have xp : |r (p a + w) - p a| ≤ 2 * w := by
    have := abs_le.1 rp
    rw [abs_le]; constructor <;> linarith
  have x0 : |p a - p a| ≤ 2 * w := by rw [sub_self, abs_zero]; positivity
  have self : flMoved (roundedQuery r norm interp) p a (p a) = ⟨p, (roundedQuery r norm interp).one⟩ := by
    unfold flMoved
    congr 1
    funext b
    by_cases hb : b = a
    · rw [if_pos hb, hb]
    · rw [if_neg hb]
  have hsub : (roundedQuery r norm interp).sub (p a) w = r (p a - w) := rfl
  have hadd : (roundedQuery r norm interp).add (p a) w = r (p a + w) := rfl
  rw [hsub, hadd] at hva
  rcases hc : answered (flEstimate (roundedQuery r norm interp) (g.computed inv toGrid toWorld rotate) ⟨p, (roundedQuery r norm interp).one⟩) with _ | c
  · rw [hc] at hva; cases hva
  rcases hm : answered (flEstimate (roundedQuery r norm interp) (g.computed inv toGrid toWorld rotate)
    (flMoved (roundedQuery r norm interp) p a (r (p a - w)))) with _ | m <;>
  rcases hpl : answered (flEstimate (roundedQuery r norm interp) (g.computed inv toGrid toWorld rotate)
    (flMoved (roundedQuery r norm interp) p a (r (p a + w)))) with _ | pl
  · rw [hc, hm, hpl] at hva; cases hva
  · rw [hc, hm, hpl] at hva
    have : v' a = r (r (pl - c) / r (r (p a + w) - p a)) := (Option.some.inj hva).symm
    rw [this]
    refine pair _ _ _ _ w le_rfl xp x0 ?_ hpl (by rw [self]; exact hc)
    have := abs_le.1 rp
    rw [abs_le]; constructor <;> linarith
  · rw [hc, hm, hpl] at hva
    have : v' a = r (r (c - m) / r (p a - r (p a - w))) := (Option.some.inj hva).symm
    rw [this]
    refine pair _ _ _ _ w le_rfl x0 xm ?_ (by rw [self]; exact hc) hm
    have := abs_le.1 rm
    rw [abs_le]; constructor <;> linarith
  · rw [hc, hm, hpl] at hva
    have : v' a = r (r (pl - m) / r (r (p a + w) - r (p a - w))) := (Option.some.inj hva).symm
    rw [this]
    refine pair _ _ _ _ (2 * w) (by linarith) xp xm ?_ hpl hm
    have h1 := abs_le.1 rm
    have h2 := abs_le.1 rp
    rw [abs_le]; constructor <;> linarith

end

end VGT
