import Verif.Props.GradientRound

/-!
C79: what gradients of `SignedDistanceField<float>` and `<double>` mean, with every operation rounded.
-/
set_option autoImplicit false

namespace VGT
open VGT.EDT VGT.Spec

/-- Specification: the difference quotient `x` along axis `a` at cell `i` of a grid with `n` cells along each axis, up to `τ`. Between
cells of the same kind no steeper than 1; from filled to free between 1 and 3/2 (2 at the ends of the axis), and the reverse. -/
def Spec.SlopeUpTo (τ : ℝ) (filled : Idx → Bool) (n : Fin 3 → ℕ) (i : IVec) (a : Fin 3) (x : ℝ) : Prop :=
  (filled (cellIdx (before i a)) = filled (cellIdx (after n i a)) → |x| ≤ 1 + τ) ∧
  (filled (cellIdx (before i a)) = true → filled (cellIdx (after n i a)) = false →
    (0 < i a ∧ i a + 1 < n a → 1 - τ ≤ x ∧ x ≤ 3 / 2 + τ) ∧ (¬ (0 < i a ∧ i a + 1 < n a) → |x - 2| ≤ τ)) ∧
  (filled (cellIdx (before i a)) = false → filled (cellIdx (after n i a)) = true →
    (0 < i a ∧ i a + 1 < n a → -(3 / 2) - τ ≤ x ∧ x ≤ -1 + τ) ∧ (¬ (0 < i a ∧ i a + 1 < n a) → |x + 2| ≤ τ))

theorem slopeUpTo_near {τ σ : ℝ} {filled : Idx → Bool} {n : Fin 3 → ℕ} {i : IVec} {a : Fin 3} {x y : ℝ} (h : SlopeUpTo τ filled n i a x)
    (hxy : |y - x| ≤ σ) : SlopeUpTo (τ + σ) filled n i a y := by
  have hb := abs_le.1 hxy
  obtain ⟨h1, h2, h3⟩ := h
  refine ⟨fun e => ?_, fun e f => ⟨fun m => ?_, fun m => ?_⟩, fun e f => ⟨fun m => ?_, fun m => ?_⟩⟩
  · have := abs_le.1 (h1 e)
    rw [abs_le]; constructor <;> linarith
  · have := (h2 e f).1 m
    constructor <;> linarith
  · have := abs_le.1 ((h2 e f).2 m)
    rw [abs_le]; constructor <;> linarith
  · have := (h3 e f).1 m
    constructor <;> linarith
  · have := abs_le.1 ((h3 e f).2 m)
    rw [abs_le]; constructor <;> linarith

theorem slopeUpTo_of_generated {filled : Idx → Bool} {border : Bool} {g : SDFGrid ℝ} (h : Generated filled border g) {i : IVec} {edge : Bool}
    {v w : Vec ℝ} (hw : g.coarse i edge = some (some w)) (hr : IsRotated g.pose.R v w) {a : Fin 3} (ha : axisCells g.dims a ≠ 1) :
    SlopeUpTo 0 filled (axisCells g.dims) i a (v a) := by
  obtain ⟨v', hr', hv'⟩ := C60_generated h hw
  rw [isRotated_inj h.pose hr hr']
  obtain ⟨h1, h2, h3⟩ := hv' a ha
  refine ⟨fun e => by linarith [h1 e], fun e f => ⟨fun m => ?_, fun m => ?_⟩, fun e f => ⟨fun m => ?_, fun m => ?_⟩⟩
  · have := (h2 e f).1 m
    constructor <;> linarith
  · rw [(h2 e f).2 m]; norm_num
  · have := (h3 e f).1 m
    constructor <;> linarith
  · rw [(h3 e f).2 m]; norm_num

section
variable {filled : Idx → Bool} {border : Bool} {g : SDFGrid ℝ} {r rs : ℝ → ℝ} {u η us ηs N : ℝ} {norm : (Fin 3 → ℝ) → ℝ}
  {interp : (Fin 3 → ℝ) → (Fin 3 → ℝ) → (Bool → Bool → Bool → ℝ) → (Fin 3 → ℝ) → ℝ} {inv : ℝ}
  {toGrid : Vec4 ℝ → Fin 3 → ℝ} {toWorld rotate : (Fin 3 → ℝ) → Fin 3 → ℝ}

theorem double_err : RoundErr roundDouble (2 ^ (-53 : ℤ)) (2 ^ (-1075 : ℤ)) :=
  ⟨fun x => rne_error_all (p := 53) (emin := -1074) x, by positivity, by positivity⟩

theorem float_err : RoundErr roundFloat (2 ^ (-24 : ℤ)) (2 ^ (-150 : ℤ)) :=
  ⟨fun x => rne_error_all (p := 24) (emin := -149) x, by positivity, by positivity⟩

/-- Specification of the result of a coarse gradient: near an exact gradient, within `τ` along each axis of the grid. -/
def CoarseNear (τ : ℝ) (filled : Idx → Bool) (g : SDFGrid ℝ) (i : IVec) (v' : Fin 3 → ℝ) : Prop :=
  ∃ v : Fin 3 → ℝ, ∀ a, |v a| ≤ 2 ∧ |v' a - v a| ≤ τ ∧ (axisCells g.dims a = 1 → v' a = 0 ∧ v a = 0) ∧
    (axisCells g.dims a ≠ 1 → SlopeUpTo 0 filled (axisCells g.dims) i a (v a))

theorem machine_coarse_near {ro : Rounding} (hg : GeneratedBy ro filled border g) (hr : ro.rr = roundDouble) {k : ℕ} {emin : ℤ}
    (hc : ro.cast = rne k emin) {v τ : ℝ} (hv : (2 : ℝ) ^ (-(k : ℤ)) = v) (hv2 : v ≤ 2 ^ (-24 : ℤ)) (hemin : emin + k ≤ -100)
    (hs : (2 : ℝ) ^ (-100 : ℤ) ≤ g.s) (hs' : g.s ≤ 2 ^ (100 : ℤ)) (hN0 : 0 ≤ N) (hN : ∀ a, (axisCells g.dims a : ℝ) ≤ N)
    (hrs : RoundErr rs us ηs) (hus : us ≤ 1 / 1000) (hle : (2 : ℝ) ^ (-53 : ℤ) ≤ us) (hηle : (2 : ℝ) ^ (-1075 : ℤ) ≤ ηs)
    (hτ : 4 * N * (v + 2 ^ (-51 : ℤ)) + (11 / 10 * us + 11 * 2 ^ (-53 : ℤ)) * (2 + 4 * N * (v + 2 ^ (-51 : ℤ))) + 11 / 10 * (ηs / g.s) +
      2 ^ (-1075 : ℤ) ≤ τ) {i : IVec} {edge : Bool} {v' : Fin 3 → ℝ}
    (hv' : flCoarseGrid (storedQuery roundDouble rs norm interp) (g.computed inv toGrid toWorld rotate) i edge = .value v') :
    CoarseNear τ filled g i v' := by
  obtain ⟨g₀, hg0, hd, hs0, -, hnear⟩ := hg.exact_twin hr hc hv hv2 hemin hs hN
  have hv0 : 0 ≤ v := by rw [← hv]; positivity
  have e1 : (2 : ℝ) ^ (-1075 : ℤ) ≤ 2 ^ (-53 : ℤ) * g.s := by
    calc (2 : ℝ) ^ (-1075 : ℤ) ≤ 2 ^ (-53 + -100 : ℤ) := zpow_le_zpow_right₀ (by norm_num) (by norm_num)
      _ = 2 ^ (-53 : ℤ) * 2 ^ (-100 : ℤ) := zpow_add₀ (by norm_num) _ _
      _ ≤ 2 ^ (-53 : ℤ) * g.s := by gcongr
  have e2 : (2 : ℝ) ^ (-1075 : ℤ) * g.s ≤ 2 ^ (-53 : ℤ) := by
    calc (2 : ℝ) ^ (-1075 : ℤ) * g.s ≤ 2 ^ (-1075 : ℤ) * 2 ^ (100 : ℤ) := by gcongr
      _ = 2 ^ (-1075 + 100 : ℤ) := (zpow_add₀ (by norm_num) _ _).symm
      _ ≤ 2 ^ (-53 : ℤ) := zpow_le_zpow_right₀ (by norm_num) (by norm_num)
  obtain ⟨v₀, w, hw, hrot, hva⟩ := machine_coarse hg0 hd hs0 (ε := v + 2 ^ (-51 : ℤ)) (by positivity) hnear double_err hrs (rne_zero 53 (-1074))
    (by norm_num) hus hle hηle (zpow_le_zpow_right₀ (by norm_num) (by norm_num)) e1 e2 hN0 hv'
  refine ⟨v₀, fun a => ⟨(hva a).2.1, (hva a).2.2.trans hτ, (hva a).1, fun ha => ?_⟩⟩
  have := slopeUpTo_of_generated hg0 hw hrot (a := a) (by rw [hd]; exact ha)
  rw [hd] at this
  exact this

/-- C79. `SignedDistanceField<float>`: a grid-aligned coarse gradient is within `N/2²¹` of exact slopes along each axis. -/
theorem C79_coarse_float (hg : GeneratedBy floatSDF filled border g) (hs : (2 : ℝ) ^ (-100 : ℤ) ≤ g.s) (hs' : g.s ≤ 2 ^ (100 : ℤ))
    (h1 : 1 ≤ N) (hN : ∀ a, (axisCells g.dims a : ℝ) ≤ N) {i : IVec} {edge : Bool} {v' : Fin 3 → ℝ}
    (hv' : flCoarseGrid (storedQuery roundDouble roundFloat norm interp) (g.computed inv toGrid toWorld rotate) i edge = .value v') :
    CoarseNear (N / 2 ^ 21) filled g i v' := by
  refine machine_coarse_near hg rfl (k := 24) (emin := -149) rfl rfl (by norm_num) (by norm_num) hs hs' (by linarith) hN float_err
    (by norm_num) (by norm_num) (zpow_le_zpow_right₀ (by norm_num) (by norm_num)) ?_ hv'
  have hpos : 0 < g.s := lt_of_lt_of_le (by positivity) hs
  have z1 : (2 : ℝ) ^ (-150 : ℤ) / g.s ≤ 2 ^ (-50 : ℤ) := by
    rw [div_le_iff₀ hpos]
    calc (2 : ℝ) ^ (-150 : ℤ) = 2 ^ (-50 : ℤ) * 2 ^ (-100 : ℤ) := by rw [← zpow_add₀ (by norm_num)]; norm_num
      _ ≤ 2 ^ (-50 : ℤ) * g.s := by gcongr
  have z2 : (2 : ℝ) ^ (-1075 : ℤ) ≤ 2 ^ (-50 : ℤ) := zpow_le_zpow_right₀ (by norm_num) (by norm_num)
  obtain ⟨z, hz⟩ : ∃ z, z = (2 : ℝ) ^ (-150 : ℤ) / g.s := ⟨_, rfl⟩
  obtain ⟨y, hy⟩ : ∃ y, y = (2 : ℝ) ^ (-1075 : ℤ) := ⟨_, rfl⟩
  rw [← hz] at z1 ⊢
  rw [← hy] at z2 ⊢
  norm_num at z1 z2 ⊢
  linarith

/-- C79. `SignedDistanceField<double>`: within `N/2⁴⁷`. -/
theorem C79_coarse_double (hg : GeneratedBy doubleSDF filled border g) (hs : (2 : ℝ) ^ (-100 : ℤ) ≤ g.s) (hs' : g.s ≤ 2 ^ (100 : ℤ))
    (h1 : 1 ≤ N) (hN : ∀ a, (axisCells g.dims a : ℝ) ≤ N) {i : IVec} {edge : Bool} {v' : Fin 3 → ℝ}
    (hv' : flCoarseGrid (storedQuery roundDouble roundDouble norm interp) (g.computed inv toGrid toWorld rotate) i edge = .value v') :
    CoarseNear (N / 2 ^ 47) filled g i v' := by
  refine machine_coarse_near hg rfl (k := 53) (emin := -1074) rfl rfl (by norm_num) (by norm_num) hs hs' (by linarith) hN double_err
    (by norm_num) (by norm_num) le_rfl ?_ hv'
  have hpos : 0 < g.s := lt_of_lt_of_le (by positivity) hs
  have z1 : (2 : ℝ) ^ (-1075 : ℤ) / g.s ≤ 2 ^ (-80 : ℤ) := by
    rw [div_le_iff₀ hpos]
    calc (2 : ℝ) ^ (-1075 : ℤ) ≤ 2 ^ (-80 + -100 : ℤ) := zpow_le_zpow_right₀ (by norm_num) (by norm_num)
      _ = 2 ^ (-80 : ℤ) * 2 ^ (-100 : ℤ) := zpow_add₀ (by norm_num) _ _
      _ ≤ 2 ^ (-80 : ℤ) * g.s := by gcongr
  have z2 : (2 : ℝ) ^ (-1075 : ℤ) ≤ 2 ^ (-80 : ℤ) := zpow_le_zpow_right₀ (by norm_num) (by norm_num)
  obtain ⟨z, hz⟩ : ∃ z, z = (2 : ℝ) ^ (-1075 : ℤ) / g.s := ⟨_, rfl⟩
  obtain ⟨y, hy⟩ : ∃ y, y = (2 : ℝ) ^ (-1075 : ℤ) := ⟨_, rfl⟩
  rw [← hz] at z1 ⊢
  rw [← hy] at z2 ⊢
  norm_num at z1 z2 ⊢
  linarith

/-- The slopes themselves up to the tolerance. -/
theorem C79_slopes {τ : ℝ} {i : IVec} {v' : Fin 3 → ℝ} (h : CoarseNear τ filled g i v') (a : Fin 3) :
    (axisCells g.dims a = 1 → v' a = 0) ∧ (axisCells g.dims a ≠ 1 → SlopeUpTo τ filled (axisCells g.dims) i a (v' a)) := by
  obtain ⟨v, hv⟩ := h
  obtain ⟨-, h2, h3, h4⟩ := hv a
  refine ⟨fun e => (h3 e).1, fun e => ?_⟩
  have := slopeUpTo_near (h4 e) h2
  rwa [zero_add] at this

/-- Rounded rotation with a rounded matrix. -/
theorem rotate_near (h : RoundErr r u η) (hu : u ≤ 1 / 1000) {R Rs : Fin 3 → Fin 3 → ℝ} {κ : ℝ} (hκ : κ ≤ 1 / 1000)
    (hR : ∀ a b, |R a b| ≤ 1) (hRs : ∀ a b, |Rs a b - R a b| ≤ κ) (v : Fin 3 → ℝ) (a : Fin 3) :
    |flRotate (roundedArith r) Rs v a - (R a 0 * v 0 + R a 1 * v 1 + R a 2 * v 2)| ≤
      (κ + 4 * u) * (|v 0| + |v 1| + |v 2|) + 6 * η := by
  have u0 := h.u0
  have η0 := h.eta0
  have κ0 : 0 ≤ κ := (abs_nonneg _).trans (hRs a 0)
  have prod : ∀ b, |r (Rs a b * v b) - R a b * v b| ≤ (κ + 1001 / 1000 * u) * |v b| + η ∧ |R a b * v b| ≤ |v b| := by
    intro b
    have p1 : |Rs a b * v b - R a b * v b| ≤ κ * |v b| := by
      rw [← sub_mul, abs_mul]
      exact mul_le_mul_of_nonneg_right (hRs a b) (abs_nonneg _)
    have p2 : |R a b * v b| ≤ |v b| := by
      rw [abs_mul]
      exact mul_le_of_le_one_left (abs_nonneg _) (hR a b)
    have p3 := h.near p1
    have p4 : u * (|R a b * v b| + κ * |v b|) ≤ u * (1001 / 1000 * |v b|) := by
      refine mul_le_mul_of_nonneg_left ?_ u0
      have := mul_le_mul_of_nonneg_right hκ (abs_nonneg (v b))
      linarith
    exact ⟨by linarith, p2⟩
  obtain ⟨a0, b0⟩ := prod 0
  obtain ⟨a1, b1⟩ := prod 1
  obtain ⟨a2, b2⟩ := prod 2
  have sum : ∀ {x y x' y' d e : ℝ}, |x' - x| ≤ d → |y' - y| ≤ e → |r (x' + y') - (x + y)| ≤ (d + e) + u * (|x + y| + (d + e)) + η := by
    intro x y x' y' d e hx hy
    refine h.near ?_
    rw [show x' + y' - (x + y) = (x' - x) + (y' - y) by ring]
    exact (abs_add_le _ _).trans (add_le_add hx hy)
  have s1 := sum a0 a1
  have s2 := sum s1 a2
  have n1 : |R a 0 * v 0 + R a 1 * v 1| ≤ |v 0| + |v 1| := (abs_add_le _ _).trans (add_le_add b0 b1)
  have n2 : |R a 0 * v 0 + R a 1 * v 1 + R a 2 * v 2| ≤ |v 0| + |v 1| + |v 2| := (abs_add_le _ _).trans (add_le_add n1 b2)
  show |r (r (r (Rs a 0 * v 0) + r (Rs a 1 * v 1)) + r (Rs a 2 * v 2)) - _| ≤ _
  have c0 : 0 ≤ κ + 1001 / 1000 * u := by linarith
  obtain ⟨V0, hV0⟩ : ∃ V, V = |v 0| := ⟨_, rfl⟩
  obtain ⟨V1, hV1⟩ : ∃ V, V = |v 1| := ⟨_, rfl⟩
  obtain ⟨V2, hV2⟩ : ∃ V, V = |v 2| := ⟨_, rfl⟩
  have v0 : 0 ≤ V0 := by rw [hV0]; exact abs_nonneg _
  have v1 : 0 ≤ V1 := by rw [hV1]; exact abs_nonneg _
  have v2 : 0 ≤ V2 := by rw [hV2]; exact abs_nonneg _
  rw [← hV0, ← hV1, ← hV2] at n2 ⊢
  rw [← hV0, ← hV1] at n1
  rw [← hV0, ← hV1, ← hV2] at s2
  obtain ⟨c, hc⟩ : ∃ c, c = κ + 1001 / 1000 * u := ⟨_, rfl⟩
  rw [← hc] at s2 c0
  have cs : c ≤ 3 / 1000 := by rw [hc]; linarith
  obtain ⟨D1, hD1⟩ : ∃ D, D = c * V0 + η + (c * V1 + η) + u * (|R a 0 * v 0 + R a 1 * v 1| + (c * V0 + η + (c * V1 + η))) + η := ⟨_, rfl⟩
  rw [← hD1] at s2
  have k0 : c * V0 ≤ 3 / 1000 * V0 := mul_le_mul_of_nonneg_right cs v0
  have k1 : c * V1 ≤ 3 / 1000 * V1 := mul_le_mul_of_nonneg_right cs v1
  have k2 : c * V2 ≤ 3 / 1000 * V2 := mul_le_mul_of_nonneg_right cs v2
  have uη : u * η ≤ 1 / 1000 * η := mul_le_mul_of_nonneg_right hu η0
  have hD1' : D1 ≤ c * V0 + c * V1 + 1003 / 1000 * (u * (V0 + V1)) + 3002 / 1000 * η := by
    rw [hD1]
    have : u * (|R a 0 * v 0 + R a 1 * v 1| + (c * V0 + η + (c * V1 + η))) ≤ u * (1003 / 1000 * (V0 + V1) + 2 * η) :=
      mul_le_mul_of_nonneg_left (by linarith) u0
    linarith
  have uV : u * (V0 + V1) ≤ 1 / 1000 * (V0 + V1) := mul_le_mul_of_nonneg_right hu (by linarith)
  have last : u * (|R a 0 * v 0 + R a 1 * v 1 + R a 2 * v 2| + (D1 + (c * V2 + η))) ≤ u * (1005 / 1000 * (V0 + V1 + V2) + 5 * η) :=
    mul_le_mul_of_nonneg_left (by linarith) u0
  have m2 : 0 ≤ u * V2 := mul_nonneg u0 v2
  have m1 : 0 ≤ u * V1 := mul_nonneg u0 v1
  have m0 : 0 ≤ u * V0 := mul_nonneg u0 v0
  refine s2.trans ?_
  rw [hc] at hD1' ⊢
  rw [hc] at last
  linarith

/-- C79. In the frame of the world: with a rotation that is computed to within `ρ`, the coarse gradient is near the rotated exact one. -/
theorem C79_coarse_world {τ ρ : ℝ} (hR : ∀ a b, |g.pose.R a b| ≤ 1) (hρ : ∀ v a, |rotate v a - (g.pose.R a 0 * v 0 + g.pose.R a 1 * v 1 +
      g.pose.R a 2 * v 2)| ≤ ρ * (1 + |v 0| + |v 1| + |v 2|)) (hρ0 : 0 ≤ ρ) {A : QueryArith ℝ} {i : IVec} {edge : Bool}
    (hnear : ∀ v', flCoarseGrid A (g.computed inv toGrid toWorld rotate) i edge = .value v' → CoarseNear τ filled g i v')
    {w' : Fin 3 → ℝ} (hw' : flCoarse A (g.computed inv toGrid toWorld rotate) i edge = .value w') :
    ∃ v w, (∀ a, |v a| ≤ 2 ∧ (axisCells g.dims a = 1 → v a = 0) ∧ (axisCells g.dims a ≠ 1 → SlopeUpTo 0 filled (axisCells g.dims) i a (v a))) ∧
      IsRotated g.pose.R v w ∧ ∀ a, |w' a - w a| ≤ 3 * τ + ρ * (7 + 3 * τ) := by
  unfold flCoarse at hw'
  rcases hc : flCoarseGrid A (g.computed inv toGrid toWorld rotate) i edge with _ | _ | _ | v'
  · rw [hc] at hw'; cases hw'
  · rw [hc] at hw'; cases hw'
  · rw [hc] at hw'; cases hw'
  rw [hc] at hw'
  cases hw'
  obtain ⟨v, hv⟩ := hnear v' hc
  refine ⟨v, fun a => g.pose.R a 0 * v 0 + g.pose.R a 1 * v 1 + g.pose.R a 2 * v 2, fun a => ⟨(hv a).1, fun e => ((hv a).2.2.1 e).2, (hv a).2.2.2⟩,
    fun a => rfl, fun a => ?_⟩
  have h1 := hρ v' a
  have hb : ∀ b, |v' b| ≤ 2 + τ := by
    intro b
    have := abs_add_le (v' b - v b) (v b)
    rw [sub_add_cancel] at this
    linarith [(hv b).1, (hv b).2.1]
  have h2 : ρ * (1 + |v' 0| + |v' 1| + |v' 2|) ≤ ρ * (7 + 3 * τ) := mul_le_mul_of_nonneg_left (by linarith [hb 0, hb 1, hb 2]) hρ0
  have term : ∀ b, |g.pose.R a b * (v' b - v b)| ≤ τ := by
    intro b
    rw [abs_mul]
    exact (mul_le_of_le_one_left (abs_nonneg _) (hR a b)).trans (hv b).2.1
  have h3 : |(g.pose.R a 0 * v' 0 + g.pose.R a 1 * v' 1 + g.pose.R a 2 * v' 2) - (g.pose.R a 0 * v 0 + g.pose.R a 1 * v 1 + g.pose.R a 2 * v 2)| ≤ 3 * τ := by
    rw [show (g.pose.R a 0 * v' 0 + g.pose.R a 1 * v' 1 + g.pose.R a 2 * v' 2) - (g.pose.R a 0 * v 0 + g.pose.R a 1 * v 1 + g.pose.R a 2 * v 2) =
      g.pose.R a 0 * (v' 0 - v 0) + g.pose.R a 1 * (v' 1 - v 1) + g.pose.R a 2 * (v' 2 - v 2) by ring]
    have t1 := abs_add_le (g.pose.R a 0 * (v' 0 - v 0) + g.pose.R a 1 * (v' 1 - v 1)) (g.pose.R a 2 * (v' 2 - v 2))
    have t2 := abs_add_le (g.pose.R a 0 * (v' 0 - v 0)) (g.pose.R a 1 * (v' 1 - v 1))
    linarith [term 0, term 1, term 2]
  have t := abs_sub_le (rotate v' a) (g.pose.R a 0 * v' 0 + g.pose.R a 1 * v' 1 + g.pose.R a 2 * v' 2)
    (g.pose.R a 0 * v 0 + g.pose.R a 1 * v 1 + g.pose.R a 2 * v 2)
  show |rotate v' a - _| ≤ _
  linarith

/-! ### Fine gradients -/

/-- What a user has to know about the transform into the frame of the grid near `p`: it is off by at most `δ`. -/
def LocatedWithin (δ w : ℝ) (g : SDFGrid ℝ) (toGrid : Vec4 ℝ → Fin 3 → ℝ) (p : Fin 3 → ℝ) : Prop :=
  ∀ x y : Fin 3 → ℝ, InFrame g.pose.R g.pose.t y x → (∀ a, |x a - p a| ≤ 2 * w) → ∀ a, |toGrid ⟨x, 1⟩ a - y a| ≤ δ

theorem fine_tolerance {s v c E δ δ' w B : ℝ} (hs : 0 ≤ s) (h1 : 1 ≤ N) (hv : 61 * (v + 2 ^ (-51 : ℤ)) ≤ c) (hw : 0 < w)
    (hE : E = (3 * (3780 * (2 ^ (-53 : ℤ) * N) + 101 / 100 * (8000 * (2 ^ (-53 : ℤ) * N))) + 54 * (v + 2 ^ (-51 : ℤ))) * (N * s)) (hv0 : 0 ≤ v)
    (hδ' : δ' = 2 ^ (-53 : ℤ) * (B + w) + 2 ^ (-53 : ℤ) * w) (hB : 0 ≤ B) :
    (9 / 8 * E + 252 * (2 ^ (-53 : ℤ) * N) * s + 16 * δ + 24 * δ') / w + 70 * 2 ^ (-53 : ℤ) ≤
      ((N * c + N ^ 2 / 2 ^ 37) * s + 16 * δ + B / 2 ^ 48) / w + 1 / 2 ^ 46 := by
  have e53 : (2 : ℝ) ^ (-53 : ℤ) = 1 / 2 ^ 53 := by rw [zpow_neg, one_div]; norm_cast
  rw [e53] at hE hδ' ⊢
  have hNs : 0 ≤ N * s := mul_nonneg (by linarith) hs
  have h2 := mul_le_mul_of_nonneg_right hv hNs
  have h3 : N * s ≤ N * (N * s) := by nlinarith
  have h4 : 0 ≤ N * (N * s) := by positivity
  have h5 : 0 ≤ (v + 2 ^ (-51 : ℤ)) * (N * s) := by positivity
  have eE : E = (35580 / 2 ^ 53 - 32 / 2 ^ 53 + 32 / 2 ^ 53) * (N * (N * s)) + 54 * ((v + 2 ^ (-51 : ℤ)) * (N * s)) := by rw [hE]; ring
  have e2 : (N * c + N ^ 2 / 2 ^ 37) * s = c * (N * s) + (65536 / 2 ^ 53) * (N * (N * s)) := by ring
  have main : 9 / 8 * E + 252 * (1 / 2 ^ 53 * N) * s + 16 * δ + 24 * δ' ≤ ((N * c + N ^ 2 / 2 ^ 37) * s + 16 * δ + B / 2 ^ 48) + 48 / 2 ^ 53 * w := by
    rw [e2, hδ', eE]
    have e3 : 252 * (1 / 2 ^ 53 * N) * s = 252 / 2 ^ 53 * (N * s) := by ring
    rw [e3]
    norm_num at *
    linarith
  have hd := div_le_div_of_nonneg_right main hw.le
  have e4 : ∀ X : ℝ, (X + 48 / 2 ^ 53 * w) / w = X / w + 48 / 2 ^ 53 := fun X => by rw [add_div, mul_div_assoc, div_self hw.ne', mul_one]
  rw [e4] at hd
  have : (48 : ℝ) / 2 ^ 53 + 70 * (1 / 2 ^ 53) ≤ 1 / 2 ^ 46 := by norm_num
  linarith

theorem machine_fine_double {ro : Rounding} (hg : GeneratedBy ro filled border g) (hr : ro.rr = roundDouble) {k : ℕ} {emin : ℤ}
    (hc : ro.cast = rne k emin) {v c : ℝ} (hv : (2 : ℝ) ^ (-(k : ℤ)) = v) (hv2 : v ≤ 2 ^ (-24 : ℤ)) (hemin : emin + k ≤ -100)
    (hcv : 61 * (v + 2 ^ (-51 : ℤ)) ≤ c)
    (hs : (2 : ℝ) ^ (-100 : ℤ) ≤ g.s) (hs' : g.s ≤ 2 ^ (100 : ℤ)) (h1 : 1 ≤ N) (hN43 : N ≤ 2 ^ 43)
    (hN : ∀ a, (axisCells g.dims a : ℝ) ≤ N) (hint : DoubleInterpolation interp)
    {p q : Fin 3 → ℝ} (hq : InFrame g.pose.R g.pose.t q p) {window δ B : ℝ} (hw : (2 : ℝ) ^ (-1022 : ℤ) ≤ |window|)
    (hB : ∀ a, |p a| ≤ B) (hBw : B ≤ 2 ^ 48 * |window|) (hloc : LocatedWithin δ |window| g toGrid p)
    (hroom : ∀ a, 2 * |window| + δ + N * g.s / 2 ^ 50 ≤ q a ∧ q a + (2 * |window| + δ + N * g.s / 2 ^ 50) < axisCells g.dims a * g.s) :
    ∃ v' g₀ v₀, flFine (roundedQuery roundDouble norm interp) (g.computed (roundDouble (1 / g.s)) toGrid toWorld rotate) p window = .value v' ∧
      Generated filled border g₀ ∧ g₀.dims = g.dims ∧ g₀.s = g.s ∧ g₀.pose = g.pose ∧ g₀.fine p window = .value v₀ ∧
      ∀ a, |v' a - v₀ a| ≤ ((N * c + N ^ 2 / 2 ^ 37) * g.s + 16 * δ + B / 2 ^ 48) / |window| + 1 / 2 ^ 46 := by
  obtain ⟨g₀, hg0, hd, hs0, hP, hnear⟩ := hg.exact_twin hr hc hv hv2 hemin hs hN
  have hv0 : 0 ≤ v := by rw [← hv]; positivity
  have hsb : (2 : ℝ) ^ (-1022 : ℤ) ≤ g.s := le_trans (zpow_le_zpow_right₀ (by norm_num) (by norm_num)) hs
  have hsb' : g.s ≤ (2 : ℝ) ^ (1022 : ℤ) := hs'.trans (zpow_le_zpow_right₀ (by norm_num) (by norm_num))
  have hp : Precise (roundDouble : ℝ → ℝ) (2 ^ (-53 : ℤ)) (2 ^ (-1075 : ℤ)) g.s N := precise_double hsb h1 hN43
  have hwpos : 0 < |window| := lt_of_lt_of_le (by positivity) hw
  have hB0 : 0 ≤ B := (abs_nonneg _).trans (hB 0)
  have hηw : (2 : ℝ) ^ (-1075 : ℤ) ≤ 2 ^ (-53 : ℤ) * |window| := by
    calc (2 : ℝ) ^ (-1075 : ℤ) = 2 ^ (-53 : ℤ) * 2 ^ (-1022 : ℤ) := by rw [← zpow_add₀ (by norm_num)]; norm_num
      _ ≤ 2 ^ (-53 : ℤ) * |window| := by gcongr
  have e53 : (2 : ℝ) ^ (-53 : ℤ) = 1 / 2 ^ 53 := by rw [zpow_neg, one_div]; norm_cast
  obtain ⟨w, hwe⟩ : ∃ w, w = |window| := ⟨_, rfl⟩
  obtain ⟨δ', hδ'⟩ : ∃ d : ℝ, d = 2 ^ (-53 : ℤ) * (B + w) + 2 ^ (-53 : ℤ) * w := ⟨_, rfl⟩
  rw [← hwe] at hwpos hηw hBw hloc hroom
  have hround : ∀ a, |roundDouble (p a - w) - (p a - w)| ≤ δ' ∧ |roundDouble (p a + w) - (p a + w)| ≤ δ' := by
    intro a
    have m : |p a - w| ≤ B + w := by
      have := abs_sub (p a) w
      rw [abs_of_pos hwpos] at this
      linarith [hB a]
    have n : |p a + w| ≤ B + w := by
      have := abs_add_le (p a) w
      rw [abs_of_pos hwpos] at this
      linarith [hB a]
    have m1 := hp.err (p a - w)
    have n1 := hp.err (p a + w)
    have m2 := mul_le_mul_of_nonneg_left m hp.u0
    have n2 := mul_le_mul_of_nonneg_left n hp.u0
    rw [hδ']
    constructor <;> linarith
  have hε : v + (2 : ℝ) ^ (-51 : ℤ) ≤ 1 / 4 := by
    norm_num at hv2 ⊢
    linarith
  obtain ⟨v', v₀, hv', hv0', hb⟩ := machine_fine (interp := interp) (norm := norm) (toWorld := toWorld) (rotate := rotate) (toGrid := toGrid)
    (window := window) (δ := δ) (δ' := δ') hg0 hd hs0 hP (ε := v + 2 ^ (-51 : ℤ)) (by positivity) hε hnear hp
    (hint.accurate hs hs' h1 hN43) (by have := hp.k0; linarith) hN (double_inverse hsb hsb') hq (by rw [← hwe]; exact hwpos)
    (by rw [← hwe]; exact hηw) (by rw [← hwe]; exact hround) (by
      rw [← hwe, hδ', e53]
      norm_num
      linarith) (by rw [← hwe]; exact hloc) (by
      intro a
      have e : 5 * (2 ^ (-53 : ℤ) * N) * g.s ≤ N * g.s / 2 ^ 50 := by
        rw [e53]
        have : 0 ≤ N * g.s := mul_nonneg (by linarith) hp.s0.le
        have e : 5 * (1 / 2 ^ 53 * N) * g.s = 5 / 2 ^ 53 * (N * g.s) := by ring
        rw [e]
        norm_num
        linarith
      rw [← hwe]
      have := hroom a
      generalize 5 * ((2 : ℝ) ^ (-53 : ℤ) * N) * g.s = m at e ⊢
      constructor <;> linarith)
  refine ⟨v', g₀, v₀, hv', hg0, hd, hs0, hP, hv0', fun a => (hb a).trans ?_⟩
  rw [← hwe]
  exact fine_tolerance hp.s0.le h1 hcv hwpos rfl hv0 hδ' hB0

/-- C79. `SignedDistanceField<float>`: where both neighbours along every axis are in the grid, `GetLocationFineGradient` answers, and its
answer is that of the exact field up to the given tolerance: the errors of the estimates divided by the window. `δ` is the error of the
transform into the frame of the grid, `B` bounds the coordinates of the location. -/
theorem C79_fine_float (hg : GeneratedBy floatSDF filled border g) (hs : (2 : ℝ) ^ (-100 : ℤ) ≤ g.s) (hs' : g.s ≤ 2 ^ (100 : ℤ))
    (h1 : 1 ≤ N) (hN43 : N ≤ 2 ^ 43) (hN : ∀ a, (axisCells g.dims a : ℝ) ≤ N) (hint : DoubleInterpolation interp)
    {p q : Fin 3 → ℝ} (hq : InFrame g.pose.R g.pose.t q p) {window δ B : ℝ} (hw : (2 : ℝ) ^ (-1022 : ℤ) ≤ |window|)
    (hB : ∀ a, |p a| ≤ B) (hBw : B ≤ 2 ^ 48 * |window|) (hloc : LocatedWithin δ |window| g toGrid p)
    (hroom : ∀ a, 2 * |window| + δ + N * g.s / 2 ^ 50 ≤ q a ∧ q a + (2 * |window| + δ + N * g.s / 2 ^ 50) < axisCells g.dims a * g.s) :
    ∃ v' g₀ v₀, flFine (roundedQuery roundDouble norm interp) (g.computed (roundDouble (1 / g.s)) toGrid toWorld rotate) p window = .value v' ∧
      Generated filled border g₀ ∧ g₀.dims = g.dims ∧ g₀.s = g.s ∧ g₀.pose = g.pose ∧ g₀.fine p window = .value v₀ ∧
      ∀ a, |v' a - v₀ a| ≤ ((N / 2 ^ 18 + N ^ 2 / 2 ^ 37) * g.s + 16 * δ + B / 2 ^ 48) / |window| + 1 / 2 ^ 46 := by
  have := machine_fine_double (norm := norm) (toWorld := toWorld) (rotate := rotate) (c := 1 / 2 ^ 18) hg rfl (k := 24) (emin := -149) rfl rfl
    (by norm_num) (by norm_num) (by norm_num) hs hs' h1 hN43 hN hint hq hw hB hBw hloc hroom
  rw [mul_one_div] at this
  exact this

/-- C79. The same for `SignedDistanceField<double>`. -/
theorem C79_fine_double (hg : GeneratedBy doubleSDF filled border g) (hs : (2 : ℝ) ^ (-100 : ℤ) ≤ g.s) (hs' : g.s ≤ 2 ^ (100 : ℤ))
    (h1 : 1 ≤ N) (hN43 : N ≤ 2 ^ 43) (hN : ∀ a, (axisCells g.dims a : ℝ) ≤ N) (hint : DoubleInterpolation interp)
    {p q : Fin 3 → ℝ} (hq : InFrame g.pose.R g.pose.t q p) {window δ B : ℝ} (hw : (2 : ℝ) ^ (-1022 : ℤ) ≤ |window|)
    (hB : ∀ a, |p a| ≤ B) (hBw : B ≤ 2 ^ 48 * |window|) (hloc : LocatedWithin δ |window| g toGrid p)
    (hroom : ∀ a, 2 * |window| + δ + N * g.s / 2 ^ 50 ≤ q a ∧ q a + (2 * |window| + δ + N * g.s / 2 ^ 50) < axisCells g.dims a * g.s) :
    ∃ v' g₀ v₀, flFine (roundedQuery roundDouble norm interp) (g.computed (roundDouble (1 / g.s)) toGrid toWorld rotate) p window = .value v' ∧
      Generated filled border g₀ ∧ g₀.dims = g.dims ∧ g₀.s = g.s ∧ g₀.pose = g.pose ∧ g₀.fine p window = .value v₀ ∧
      ∀ a, |v' a - v₀ a| ≤ ((N / 2 ^ 42 + N ^ 2 / 2 ^ 37) * g.s + 16 * δ + B / 2 ^ 48) / |window| + 1 / 2 ^ 46 := by
  have := machine_fine_double (norm := norm) (toWorld := toWorld) (rotate := rotate) (c := 1 / 2 ^ 42) hg rfl (k := 53) (emin := -1074) rfl rfl
    (by norm_num) (by norm_num) (by norm_num) hs hs' h1 hN43 hN hint hq hw hB hBw hloc hroom
  rw [mul_one_div] at this
  exact this

theorem bounded_tolerance {s v c E δ w : ℝ} (hs : 0 ≤ s) (h1 : 1 ≤ N) (hv : 54 * (v + 2 ^ (-51 : ℤ)) ≤ c) (hw : 0 < w)
    (hE : E = (3 * (3780 * (2 ^ (-53 : ℤ) * N) + 101 / 100 * (8000 * (2 ^ (-53 : ℤ) * N))) + 54 * (v + 2 ^ (-51 : ℤ))) * (N * s)) :
    8 + 3 * (E + 160 * (2 ^ (-53 : ℤ) * N) * s + 10 * δ) / w ≤ 8 + 3 * ((N * c + N ^ 2 / 2 ^ 37) * s + 10 * δ) / w := by
  have e53 : (2 : ℝ) ^ (-53 : ℤ) = 1 / 2 ^ 53 := by rw [zpow_neg, one_div]; norm_cast
  rw [e53] at hE ⊢
  have hNs : 0 ≤ N * s := mul_nonneg (by linarith) hs
  have h2 := mul_le_mul_of_nonneg_right hv hNs
  have h3 : N * s ≤ N * (N * s) := by nlinarith
  have h4 : 0 ≤ N * (N * s) := by positivity
  have eE : E = (35580 / 2 ^ 53) * (N * (N * s)) + 54 * (v + 2 ^ (-51 : ℤ)) * (N * s) := by rw [hE]; ring
  have e2 : (N * c + N ^ 2 / 2 ^ 37) * s = c * (N * s) + (65536 / 2 ^ 53) * (N * (N * s)) := by ring
  have e3 : 160 * (1 / 2 ^ 53 * N) * s = 160 / 2 ^ 53 * (N * s) := by ring
  have main : 3 * (E + 160 * (1 / 2 ^ 53 * N) * s + 10 * δ) ≤ 3 * ((N * c + N ^ 2 / 2 ^ 37) * s + 10 * δ) := by
    rw [e2, eE, e3]
    norm_num at *
    linarith
  have := div_le_div_of_nonneg_right main hw.le
  linarith

theorem machine_fine_bounded_double {ro : Rounding} (hg : GeneratedBy ro filled border g) (hr : ro.rr = roundDouble) {k : ℕ} {emin : ℤ}
    (hc : ro.cast = rne k emin) {v c : ℝ} (hv : (2 : ℝ) ^ (-(k : ℤ)) = v) (hv2 : v ≤ 2 ^ (-24 : ℤ)) (hemin : emin + k ≤ -100)
    (hcv : 54 * (v + 2 ^ (-51 : ℤ)) ≤ c)
    (hs : (2 : ℝ) ^ (-100 : ℤ) ≤ g.s) (hs' : g.s ≤ 2 ^ (100 : ℤ)) (h1 : 1 ≤ N) (hN43 : N ≤ 2 ^ 43)
    (hN : ∀ a, (axisCells g.dims a : ℝ) ≤ N) (hint : DoubleInterpolation interp)
    {p : Fin 3 → ℝ} {window δ B : ℝ} (hw : (2 : ℝ) ^ (-1022 : ℤ) ≤ |window|)
    (hB : ∀ a, |p a| ≤ B) (hBw : B ≤ 2 ^ 46 * |window|) (hloc : LocatedWithin δ |window| g toGrid p) {v' : Fin 3 → ℝ}
    (hv' : flFine (roundedQuery roundDouble norm interp) (g.computed (roundDouble (1 / g.s)) toGrid toWorld rotate) p window = .value v') (a : Fin 3) :
    |v' a| ≤ 8 + 3 * ((N * c + N ^ 2 / 2 ^ 37) * g.s + 10 * δ) / |window| := by
  obtain ⟨g₀, hg0, hd, hs0, hP, hnear⟩ := hg.exact_twin hr hc hv hv2 hemin hs hN
  have hv0 : 0 ≤ v := by rw [← hv]; positivity
  have hsb : (2 : ℝ) ^ (-1022 : ℤ) ≤ g.s := le_trans (zpow_le_zpow_right₀ (by norm_num) (by norm_num)) hs
  have hsb' : g.s ≤ (2 : ℝ) ^ (1022 : ℤ) := hs'.trans (zpow_le_zpow_right₀ (by norm_num) (by norm_num))
  have hp : Precise (roundDouble : ℝ → ℝ) (2 ^ (-53 : ℤ)) (2 ^ (-1075 : ℤ)) g.s N := precise_double hsb h1 hN43
  have hwpos : 0 < |window| := lt_of_lt_of_le (by positivity) hw
  have hηw : (2 : ℝ) ^ (-1075 : ℤ) ≤ 2 ^ (-53 : ℤ) * |window| := by
    calc (2 : ℝ) ^ (-1075 : ℤ) = 2 ^ (-53 : ℤ) * 2 ^ (-1022 : ℤ) := by rw [← zpow_add₀ (by norm_num)]; norm_num
      _ ≤ 2 ^ (-53 : ℤ) * |window| := by gcongr
  have e53 : (2 : ℝ) ^ (-53 : ℤ) = 1 / 2 ^ 53 := by rw [zpow_neg, one_div]; norm_cast
  obtain ⟨w, hwe⟩ : ∃ w, w = |window| := ⟨_, rfl⟩
  obtain ⟨δ', hδ'⟩ : ∃ d : ℝ, d = 2 ^ (-53 : ℤ) * (B + w) + 2 ^ (-53 : ℤ) * w := ⟨_, rfl⟩
  rw [← hwe] at hwpos hηw hBw hloc
  have hround : ∀ a, |roundDouble (p a - w) - (p a - w)| ≤ δ' ∧ |roundDouble (p a + w) - (p a + w)| ≤ δ' := by
    intro a
    have m : |p a - w| ≤ B + w := by
      have := abs_sub (p a) w
      rw [abs_of_pos hwpos] at this
      linarith [hB a]
    have n : |p a + w| ≤ B + w := by
      have := abs_add_le (p a) w
      rw [abs_of_pos hwpos] at this
      linarith [hB a]
    have m1 := hp.err (p a - w)
    have n1 := hp.err (p a + w)
    have m2 := mul_le_mul_of_nonneg_left m hp.u0
    have n2 := mul_le_mul_of_nonneg_left n hp.u0
    rw [hδ']
    constructor <;> linarith
  have hε : v + (2 : ℝ) ^ (-51 : ℤ) ≤ 1 / 4 := by
    norm_num at hv2 ⊢
    linarith
  refine (machine_fine_bounded (δ' := δ') hg0 hd hs0 hP (ε := v + 2 ^ (-51 : ℤ)) (by positivity) hε hnear hp
    (hint.accurate hs hs' h1 hN43) (by have := hp.k0; linarith) hN (double_inverse hsb hsb') (by rw [← hwe]; exact hwpos)
    (by rw [← hwe]; exact hηw) (by rw [← hwe]; exact hround) (by
      rw [← hwe, hδ', e53]
      norm_num
      linarith) (by rw [← hwe]; exact hloc) hv' a).trans ?_
  rw [← hwe]
  exact bounded_tolerance hp.s0.le h1 hcv hwpos rfl

/-- C79. `SignedDistanceField<float>`: no component of a fine gradient, with one neighbour or with two, is larger than 8 up to the errors of
the estimates divided by the window. -/
theorem C79_fine_bounded_float (hg : GeneratedBy floatSDF filled border g) (hs : (2 : ℝ) ^ (-100 : ℤ) ≤ g.s) (hs' : g.s ≤ 2 ^ (100 : ℤ))
    (h1 : 1 ≤ N) (hN43 : N ≤ 2 ^ 43) (hN : ∀ a, (axisCells g.dims a : ℝ) ≤ N) (hint : DoubleInterpolation interp)
    {p : Fin 3 → ℝ} {window δ B : ℝ} (hw : (2 : ℝ) ^ (-1022 : ℤ) ≤ |window|)
    (hB : ∀ a, |p a| ≤ B) (hBw : B ≤ 2 ^ 46 * |window|) (hloc : LocatedWithin δ |window| g toGrid p) {v' : Fin 3 → ℝ}
    (hv' : flFine (roundedQuery roundDouble norm interp) (g.computed (roundDouble (1 / g.s)) toGrid toWorld rotate) p window = .value v') (a : Fin 3) :
    |v' a| ≤ 8 + 3 * ((N / 2 ^ 18 + N ^ 2 / 2 ^ 37) * g.s + 10 * δ) / |window| := by
  have := machine_fine_bounded_double (c := 1 / 2 ^ 18) hg rfl (k := 24) (emin := -149) rfl rfl
    (by norm_num) (by norm_num) (by norm_num) hs hs' h1 hN43 hN hint hw hB hBw hloc hv' a
  rw [mul_one_div] at this
  exact this

/-- C79. The same for `SignedDistanceField<double>`. -/
theorem C79_fine_bounded_double (hg : GeneratedBy doubleSDF filled border g) (hs : (2 : ℝ) ^ (-100 : ℤ) ≤ g.s) (hs' : g.s ≤ 2 ^ (100 : ℤ))
    (h1 : 1 ≤ N) (hN43 : N ≤ 2 ^ 43) (hN : ∀ a, (axisCells g.dims a : ℝ) ≤ N) (hint : DoubleInterpolation interp)
    {p : Fin 3 → ℝ} {window δ B : ℝ} (hw : (2 : ℝ) ^ (-1022 : ℤ) ≤ |window|)
    (hB : ∀ a, |p a| ≤ B) (hBw : B ≤ 2 ^ 46 * |window|) (hloc : LocatedWithin δ |window| g toGrid p) {v' : Fin 3 → ℝ}
    (hv' : flFine (roundedQuery roundDouble norm interp) (g.computed (roundDouble (1 / g.s)) toGrid toWorld rotate) p window = .value v') (a : Fin 3) :
    |v' a| ≤ 8 + 3 * ((N / 2 ^ 44 + N ^ 2 / 2 ^ 37) * g.s + 10 * δ) / |window| := by
  have := machine_fine_bounded_double (c := 1 / 2 ^ 44) hg rfl (k := 53) (emin := -1074) rfl rfl
    (by norm_num) (by norm_num) (by norm_num) hs hs' h1 hN43 hN hint hw hB hBw hloc hv' a
  rw [mul_one_div] at this
  exact this

end

/-- A difference of equal values over a window that rounding has removed. -/
theorem nothing_over_nothing {r : ℚ → Fl} (hr : r 0 = .fin 0) (e : Fl) (x : ℚ) :
    Fl.divR r (Fl.subR r e e) (Fl.subR r (.fin x) (.fin x)) = .nan := by
  have h1 : Fl.subR r (.fin x) (.fin x) = .fin 0 := by unfold Fl.subR; dsimp only; rw [sub_self, hr]
  rw [h1]
  cases e with
  | nan => rfl
  | pinf => rfl
  | ninf => rfl
  | fin q =>
    have h2 : Fl.subR r (.fin q) (.fin q) = .fin 0 := by unfold Fl.subR; dsimp only; rw [sub_self, hr]
    rw [h2]
    unfold Fl.divR Fl.div
    simp

/-- C79. Where a window is lost when it is added to and subtracted from a coordinate, the returned gradient is not a number. -/
theorem C79_window_lost {r rs : ℚ → Fl} {bits : ℕ} {norm : (Fin 3 → Fl) → Fl}
    {interp : (Fin 3 → Fl) → (Fin 3 → Fl) → (Bool → Bool → Bool → Fl) → (Fin 3 → Fl) → Fl} (hr : r 0 = .fin 0) {g : FlSDF Fl}
    {p : Fin 3 → Fl} {window : Fl} {v : Fin 3 → Fl} (hv : flFine (ieeeQuery r rs bits norm interp) g p window = .value v) {a : Fin 3} {x : ℚ}
    (hx : p a = .fin x) (hm : Fl.subR r (p a) (Fl.absF window) = p a) (hq : Fl.addR r (p a) (Fl.absF window) = p a) : v a = .nan := by
  have hva := flFine_parts _ _ hv a
  have e1 : (ieeeQuery r rs bits norm interp).sub (p a) ((ieeeQuery r rs bits norm interp).abs window) = p a := hm
  have e2 : (ieeeQuery r rs bits norm interp).add (p a) ((ieeeQuery r rs bits norm interp).abs window) = p a := hq
  have self : flMoved (ieeeQuery r rs bits norm interp) p a (p a) = ⟨p, (ieeeQuery r rs bits norm interp).one⟩ := by
    unfold flMoved
    congr 1
    funext b
    by_cases hb : b = a
    · rw [if_pos hb, hb]
    · rw [if_neg hb]
  rw [e1, e2, self] at hva
  rcases hc : answered (flEstimate (ieeeQuery r rs bits norm interp) g ⟨p, (ieeeQuery r rs bits norm interp).one⟩) with _ | c
  · rw [hc] at hva; cases hva
  · rw [hc] at hva
    have : v a = Fl.divR r (Fl.subR r c c) (Fl.subR r (p a) (p a)) := (Option.some.inj hva).symm
    rw [this, hx]
    exact nothing_over_nothing hr c x

/-- Queries in `double` with 64-bit indices. -/
def doubleQuery : QueryArith Fl :=
  ieeeQuery (fun q => saturate ((2 - 1 / 2 ^ 52) * 2 ^ 1023) (roundDouble q)) (fun q => saturate ((2 - 1 / 2 ^ 52) * 2 ^ 1023) (roundDouble q)) 64
    (fun v => Fl.absF (v 0)) (flTrilinear double64)

def components : Answer (Fin 3 → Fl) → Option (List Fl)
  | .value v => some [v 0, v 1, v 2]
  | _ => none

/-- C79. A window of `2⁻⁶⁰` at the boundary of an obstacle: all components are NaN, although the field has slope 1 there; with a window
of 1/4 they are right. -/
theorem C79_tiny_window : components (flFine doubleQuery halfFull ![.fin 2, .fin (1 / 2), .fin (1 / 2)] (.fin (1 / 2 ^ 60))) = some [.nan, .nan, .nan] ∧
    components (flFine doubleQuery halfFull ![.fin 2, .fin (1 / 2), .fin (1 / 2)] (.fin (1 / 4))) = some [.fin 1, .fin 0, .fin 0] := by
  decide +kernel

/-! ### Cases that meet the hypotheses -/

theorem exSlab_ok : GenOK floatSDF ⟨⟨8, 4, 4⟩, 1, 1, 1⟩ where
  rq := roundDouble_isDoubleRounding
  rr := roundDouble_isRounding
  rc := roundFloat_isRounding
  uniform := ⟨rfl, rfl⟩
  res := one_pos
  repr := roundDouble_isRounding.one
  castPos := by
    have : floatSDF.cast 1 = 1 := roundFloat_isRounding.one
    rw [this]; exact one_pos
  fits := by constructor <;> decide

/-- 8 × 4 × 4 cells of edge 1, the first layer filled, in single precision. The coarse gradient at the second layer is between 1 and 3/2
along the first axis. The fine gradient at `(9/2, 2, 2)` with a window of 1/4 is that of the exact field up to `2⁻¹¹`. -/
example : ∃ g : SDFGrid ℝ, GeneratedBy floatSDF (fun i => decide (i.1 = 0)) false g ∧
    (∃ v', flCoarseGrid (storedQuery roundDouble roundFloat (fun _ => 0) (flTrilinear (roundedArith roundDouble)))
      (g.computed (roundDouble (1 / g.s)) (fun l => l.v) id id) ![1, 1, 1] true = .value v' ∧ 1 - 1 / 2 ^ 18 ≤ v' 0 ∧ v' 0 ≤ 3 / 2 + 1 / 2 ^ 18) ∧
    (∃ v' g₀ v₀, flFine (roundedQuery roundDouble (fun _ => 0) (flTrilinear (roundedArith roundDouble)))
      (g.computed (roundDouble (1 / g.s)) (fun l => l.v) id id) ![9 / 2, 2, 2] (1 / 4) = .value v' ∧
      Generated (fun i => decide (i.1 = 0)) false g₀ ∧ g₀.dims = g.dims ∧ g₀.fine ![9 / 2, 2, 2] (1 / 4) = .value v₀ ∧
      ∀ a, |v' a - v₀ a| ≤ 1 / 2 ^ 11 ∧ |v' a| ≤ 9) := by
  obtain ⟨g, hg, hd, hs, hP⟩ := C68_generated_exists exSlab_ok (P := ⟨fun i j => if i = j then 1 else 0, fun _ => 0⟩)
    (by constructor <;> intro a b <;> fin_cases a <;> fin_cases b <;> simp) (filled := fun i => decide (i.1 = 0)) false
    (i := (1, 0, 0)) (by decide) (by decide) (j := (0, 0, 0)) (by decide) (by decide)
  dsimp only at hd hs
  have hframe : ∀ x : Fin 3 → ℝ, InFrame g.pose.R g.pose.t x x := by
    rw [hP]; intro x a; fin_cases a <;> simp
  have hframe' : ∀ x y : Fin 3 → ℝ, InFrame g.pose.R g.pose.t y x → x = y := by
    rw [hP]; intro x y h; funext a; rw [h a]; fin_cases a <;> simp
  have hN : ∀ a, (axisCells g.dims a : ℝ) ≤ 8 := by
    rw [hd]; intro a; fin_cases a <;> simp [axisCells] <;> norm_num
  have s1 : (2 : ℝ) ^ (-100 : ℤ) ≤ g.s := by rw [hs]; norm_num
  have s2 : g.s ≤ (2 : ℝ) ^ (100 : ℤ) := by rw [hs]; norm_num
  have hloc : LocatedWithin 0 |1 / 4| g (fun l => l.v) ![9 / 2, 2, 2] := by
    intro x y hxy _ a
    rw [hframe' x y hxy, sub_self, abs_zero]
  have hw : (2 : ℝ) ^ (-1022 : ℤ) ≤ |1 / 4| := by
    rw [abs_of_pos (by norm_num)]
    calc (2 : ℝ) ^ (-1022 : ℤ) ≤ 2 ^ (-2 : ℤ) := zpow_le_zpow_right₀ (by norm_num) (by norm_num)
      _ = 1 / 4 := by norm_num
  have hB : ∀ a, |(![9 / 2, 2, 2] : Fin 3 → ℝ) a| ≤ 8 := by
    intro a; fin_cases a <;> simp <;> norm_num [abs_le]
  refine ⟨g, hg, ?_, ?_⟩
  · have hi : CellInGrid (axisCells g.dims) ![1, 1, 1] := by rw [hd]; unfold CellInGrid; decide
    obtain ⟨w', hw'⟩ := (C65_coarse (storedQuery roundDouble roundFloat (fun _ => 0) (flTrilinear (roundedArith roundDouble)))
      (g.computed (roundDouble (1 / g.s)) (fun l => l.v) id id) ![1, 1, 1] true).1 ⟨hi, .inl rfl⟩
    obtain ⟨v', hv'⟩ : ∃ v', flCoarseGrid (storedQuery roundDouble roundFloat (fun _ => 0) (flTrilinear (roundedArith roundDouble)))
      (g.computed (roundDouble (1 / g.s)) (fun l => l.v) id id) ![1, 1, 1] true = .value v' := by
      unfold flCoarse at hw'
      rcases hc : flCoarseGrid (storedQuery roundDouble roundFloat (fun _ => 0) (flTrilinear (roundedArith roundDouble)))
        (g.computed (roundDouble (1 / g.s)) (fun l => l.v) id id) ![1, 1, 1] true with _ | _ | _ | v'
      · rw [hc] at hw'; cases hw'
      · rw [hc] at hw'; cases hw'
      · rw [hc] at hw'; cases hw'
      · exact ⟨v', rfl⟩
    refine ⟨v', hv', ?_⟩
    have := (C79_slopes (C79_coarse_float hg s1 s2 (N := 8) (by norm_num) hN hv') 0).2 (by rw [hd]; decide)
    rw [hd] at this
    have := (this.2.1 (by decide) (by decide)).1 (by decide)
    norm_num at this ⊢
    constructor <;> linarith
  · obtain ⟨v', g₀, v₀, hv', hg0, hd0, -, -, hv0, hb⟩ := C79_fine_float (norm := fun _ => 0) (toWorld := id) (rotate := id) hg s1 s2 (N := 8) (by norm_num)
      (by norm_num) hN (.inl rfl) (hframe ![9 / 2, 2, 2]) (window := 1 / 4) (δ := 0) (B := 8) hw hB (by rw [abs_of_pos (by norm_num)]; norm_num) hloc (by
        rw [hs, hd, abs_of_pos (by norm_num)]
        intro a; fin_cases a <;> simp [axisCells] <;> norm_num)
    refine ⟨v', g₀, v₀, hv', hg0, hd0, hv0, fun a => ⟨(hb a).trans ?_, ?_⟩⟩
    · rw [hs, abs_of_pos (by norm_num)]; norm_num
    · refine (C79_fine_bounded_float hg s1 s2 (N := 8) (by norm_num) (by norm_num) hN (.inl rfl) hw hB
        (by rw [abs_of_pos (by norm_num)]; norm_num) hloc hv' a).trans ?_
      rw [hs, abs_of_pos (by norm_num)]; norm_num

/-- The entries of a rotation by a quarter turn, stored exactly, meet the hypothesis of `C79_coarse_world` in `double`. -/
example (v : Fin 3 → ℝ) (a : Fin 3) : |flRotate (roundedArith roundDouble) ![![0, -1, 0], ![1, 0, 0], ![0, 0, 1]] v a -
    ((![![0, -1, 0], ![1, 0, 0], ![0, 0, 1]] : Fin 3 → Fin 3 → ℝ) a 0 * v 0 + (![![0, -1, 0], ![1, 0, 0], ![0, 0, 1]] : Fin 3 → Fin 3 → ℝ) a 1 * v 1 +
      (![![0, -1, 0], ![1, 0, 0], ![0, 0, 1]] : Fin 3 → Fin 3 → ℝ) a 2 * v 2)| ≤ 1 / 2 ^ 50 * (1 + |v 0| + |v 1| + |v 2|) := by
  have := rotate_near double_err (by norm_num) (R := ![![0, -1, 0], ![1, 0, 0], ![0, 0, 1]]) (Rs := ![![0, -1, 0], ![1, 0, 0], ![0, 0, 1]]) (κ := 0)
    (by norm_num) (by intro a b; fin_cases a <;> fin_cases b <;> simp) (by intro a b; rw [sub_self, abs_zero]) v a
  refine this.trans ?_
  have e53 : (2 : ℝ) ^ (-53 : ℤ) = 1 / 2 ^ 53 := by rw [zpow_neg, one_div]; norm_cast
  have z2 : (2 : ℝ) ^ (-1075 : ℤ) ≤ 2 ^ (-60 : ℤ) := zpow_le_zpow_right₀ (by norm_num) (by norm_num)
  obtain ⟨y, hy⟩ : ∃ y, y = (2 : ℝ) ^ (-1075 : ℤ) := ⟨_, rfl⟩
  rw [← hy] at z2 ⊢
  rw [e53]
  have := abs_nonneg (v 0)
  have := abs_nonneg (v 1)
  have := abs_nonneg (v 2)
  norm_num at z2 ⊢
  linarith

end VGT
