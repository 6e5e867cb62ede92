import Verif.Props.WallDistance

/-!
C92 up to the edge of the grid: wherever there is a fine gradient of a flat wall, it is the normal of the wall, also where differences are one-sided.
-/
set_option autoImplicit false

namespace VGT
open VGT.EDT VGT.Spec

section
variable {F : Type} {A : QueryArith F} {val kept : F → ℝ} {u η N : ℝ} {ro : Rounding} {filled : Idx → Bool} {g : SDFGrid ℝ} {fg : FlSDF F}
  {a : Fin 3} {m : ℕ}

/-- C92 in any accurate arithmetic, at all locations with a fine gradient. -/
theorem C92_wall_everywhere (hg : GeneratedBy ro filled false g) (hwall : IsWall g.dims a m filled) (hrr : ro.rr = roundDouble) {k : ℕ} {emin : ℤ}
    (hc : ro.cast = rne k emin) {v : ℝ} (hv : (2 : ℝ) ^ (-(k : ℤ)) = v) (hv2 : v ≤ 2 ^ (-24 : ℤ)) (hemin : emin + k ≤ -100)
    (hs : (2 : ℝ) ^ (-100 : ℤ) ≤ g.s) (h : FairQuery A val kept u η) (hr : FairRoom u η g.s N) (hf : FairField val kept u g fg)
    (hint : FormulaInterp A) (hN : ∀ a, (axisCells g.dims a : ℝ) ≤ N) {p : Fin 3 → F} {window : F} {w B δ : ℝ} (hw : val (A.abs window) = w)
    (hw0 : 0 < w) (hB : ∀ a, |val (p a)| ≤ B) (hδ' : u * (B + w) + η ≤ w / 1000) (hloc : FairLocated A val δ w g fg p) {v' : Fin 3 → F}
    (hv' : flFine A fg p window = .value v') (b : Fin 3) :
    |kept (v' b) - g.pose.R b a| ≤
      (3 * ((174000 * (u * N) + 54 * (v + 2 ^ (-51 : ℤ))) * (N * g.s)) + 500 * (u * N) * g.s + 3 * δ + 61 * (u * (B + w) + η)) / w + 18 * u := by
  have hvb := flFine_parts _ _ hv' b
  have hspos := hr.s0
  have hu := hr.u0
  have hη0 := hr.eta0
  have hN1 := hr.one_le
  have huN : u ≤ u * N := le_mul_of_one_le_right hu hN1
  have hu' : u ≤ 1 / 10 ^ 5 := huN.trans hr.small
  have hNs : g.s ≤ N * g.s := by nlinarith
  have hNs0 : 0 ≤ N * g.s := by linarith
  have hv0 : 0 ≤ v := by rw [← hv]; positivity
  obtain ⟨y0, hy0⟩ := exists_frame hg.pose (fun c => val (p c))
  have hδ0 : 0 ≤ δ := (abs_nonneg _).trans (hloc p y0 hy0 (by intro a; rw [sub_self, abs_zero]; positivity) 0)
  have far : ∀ {loc : Vec4 F} {e' : F}, flEstimate A fg loc = .value e' → |val (fg.toGrid loc a) - m * g.s| ≤ 2 * (N * g.s) := by
    intro loc e' he'
    obtain ⟨g₀, hg0, hd, hs0, hP, hnear⟩ := hg.exact_twin hrr hc hv hv2 hemin hs hN
    have hε1 : v + 2 ^ (-51 : ℤ) ≤ 1 / 4 := by norm_num at hv2 ⊢; linarith
    obtain ⟨hbd, hb0⟩ := twin_boundary hg0 hd hs0 hr.s0 hr.one_le (by positivity) hε1 hnear
    obtain ⟨q', p', e, hin, hq', -, -, -⟩ := fair_near hg0.pose hd hs0 hε1 hbd hb0 h hr hf hint hN he'
    have h1 := hin a
    have h2 := abs_le.1 (hq' a)
    have h3 : (axisCells g.dims a : ℝ) * g.s ≤ N * g.s := mul_le_mul_of_nonneg_right (hN a) hspos.le
    have h4 : (m : ℝ) * g.s ≤ N * g.s := by
      refine mul_le_mul_of_nonneg_right (le_trans ?_ (hN a)) hspos.le
      have := hwall.lt
      have e : ![g.dims.nx, g.dims.ny, g.dims.nz] a = axisCells g.dims a := by fin_cases a <;> rfl
      rw [e] at this
      exact_mod_cast this.le
    have h5 : 0 ≤ (m : ℝ) * g.s := by positivity
    have h6 : u * N * g.s ≤ 1 / 10 ^ 5 * g.s := mul_le_mul_of_nonneg_right hr.small hspos.le
    rw [abs_le]
    constructor <;> linarith [h1.1, h1.2]
  have near : ∀ {loc : Vec4 F} {e' : F}, flEstimate A fg loc = .value e' → _ := fun he' =>
    C93_wall_distance hg hwall hrr hc hv hv2 hemin hs h hr hf hint hN he'
  obtain ⟨E, hEdef⟩ : ∃ E, E = (174000 * (u * N) + 54 * (v + 2 ^ (-51 : ℤ))) * (N * g.s) := ⟨_, rfl⟩
  rw [← hEdef] at near ⊢
  have hE0 : 0 ≤ E := by
    rw [hEdef]
    have := hu.trans huN
    positivity
  have hEM : E ≤ 16 * (N * g.s) := by
    rw [hEdef]
    refine mul_le_mul_of_nonneg_right ?_ hNs0
    have := hr.small
    norm_num at hv2 ⊢
    linarith
  obtain ⟨T, hT⟩ : ∃ T, T = u * N * g.s := ⟨_, rfl⟩
  have hT0 : 0 ≤ T := by rw [hT]; positivity
  have hTs : T ≤ 1 / 10 ^ 5 * g.s := by rw [hT]; exact mul_le_mul_of_nonneg_right hr.small hspos.le
  have e60 : 60 * (u * N) * g.s = 60 * T := by rw [hT]; ring
  have e500 : 500 * (u * N) * g.s = 500 * T := by rw [hT]; ring
  rw [e60] at near
  rw [e500]
  obtain ⟨δ', hδe⟩ : ∃ d, d = u * (B + w) + η := ⟨_, rfl⟩
  rw [← hδe] at hδ' ⊢
  have hB0 : 0 ≤ B := (abs_nonneg _).trans (hB 0)
  have uB0 : 0 ≤ u * B := mul_nonneg hu hB0
  have uw0 : 0 ≤ u * w := mul_nonneg hu hw0.le
  have hδ'0 : 0 ≤ δ' := by rw [hδe, mul_add]; linarith
  have sample : ∀ (x e' : F), |val x - val (p b)| ≤ 2 * w → answered (flEstimate A fg (flMoved A p b x)) = some e' →
      ∃ e, e = y0 a + g.pose.R b a * (val x - val (p b)) - m * g.s ∧ |kept e' - e| ≤ E + 60 * T + δ ∧ |e| ≤ 17 * (N * g.s) + δ := by
    intro x e' hx he
    have he' : flEstimate A fg (flMoved A p b x) = .value e' := by
      rcases hh : flEstimate A fg (flMoved A p b x) with _ | _ | _ | z
      · rw [hh] at he; cases he
      · rw [hh] at he; cases he
      · rw [hh] at he; cases he
      · rw [hh] at he; cases he; rfl
    obtain ⟨z, hz⟩ := exists_frame hg.pose (fun c => if c = b then val x else val (p c))
    have ev : ∀ c, val ((flMoved A p b x).v c) = if c = b then val x else val (p c) := by
      intro c
      show val (if c = b then x else p c) = _
      split_ifs <;> rfl
    have s3 : |val (fg.toGrid (flMoved A p b x) a) - z a| ≤ δ := by
      refine hloc (flMoved A p b x).v z (by rw [funext ev]; exact hz) (fun c => ?_) a
      rw [ev]
      by_cases hcb : c = b
      · subst hcb; rw [if_pos rfl]; exact hx
      · rw [if_neg hcb, sub_self, abs_zero]; positivity
    have ez : z a = y0 a + g.pose.R b a * (val x - val (p b)) := by
      rw [← inFrameOf_unique hg.pose hz a, ← inFrameOf_unique hg.pose hy0 a]
      unfold inFrameOf
      fin_cases b <;> simp <;> ring
    refine ⟨_, rfl, ?_, ?_⟩
    · rw [← ez]
      have t := abs_sub_le (kept e') (val (fg.toGrid (flMoved A p b x) a) - m * g.s) (z a - m * g.s)
      rw [show val (fg.toGrid (flMoved A p b x) a) - m * g.s - (z a - m * g.s) = val (fg.toGrid (flMoved A p b x) a) - z a by ring] at t
      linarith [near he']
    · rw [← ez]
      have t := abs_sub_le (z a - m * g.s) (val (fg.toGrid (flMoved A p b x) a) - m * g.s) 0
      rw [sub_zero, sub_zero, show z a - m * g.s - (val (fg.toGrid (flMoved A p b x) a) - m * g.s) = z a - val (fg.toGrid (flMoved A p b x) a) by ring,
        abs_sub_comm (z a) (val (fg.toGrid (flMoved A p b x) a))] at t
      linarith [far he']
  have pair : ∀ (x1 x2 e1' e2' : F) (H : ℝ), w ≤ H → H ≤ 2 * w → |val x1 - val (p b)| ≤ w + δ' → |val x2 - val (p b)| ≤ w + δ' →
      |val x1 - val x2 - H| ≤ 2 * δ' → answered (flEstimate A fg (flMoved A p b x1)) = some e1' →
      answered (flEstimate A fg (flMoved A p b x2)) = some e2' →
      |kept (A.div (A.sub e1' e2') (A.sub x1 x2)) - g.pose.R b a| ≤ (3 * E + 500 * T + 3 * δ + 61 * δ') / w + 18 * u := by
    intro x1 x2 e1' e2' H hH hH2 h1 h2 h12 he1 he2
    obtain ⟨e1, hd1, hb1, hm1⟩ := sample x1 e1' (by linarith) he1
    obtain ⟨e2, hd2, hb2, hm2⟩ := sample x2 e2' (by linarith) he2
    have hHpos : 0 < H := lt_of_lt_of_le hw0 hH
    have size : ∀ {x : F}, |val x - val (p b)| ≤ w + δ' → |val x| ≤ B + w + δ' := by
      intro x hx
      have t := abs_add_le (val x - val (p b)) (val (p b))
      rw [sub_add_cancel] at t
      linarith [hB b]
    have uδ : u * δ' ≤ 1 / 10 ^ 5 * δ' := mul_le_mul_of_nonneg_right hu' hδ'0
    obtain ⟨kn, kd⟩ := fair_parts h hu hu' (M := 17 * (N * g.s) + δ) (C := B + w + δ') (δ' := δ') (H := H) hb1 hb2 hm1 hm2 (by linarith)
      (hr.eta_s.trans (mul_le_mul_of_nonneg_left (by linarith) hu)) (size h1) (size h2) hHpos h12
      (by rw [show u * (2 * (B + w + δ')) = 2 * (u * (B + w)) + 2 * (u * δ') by ring]; linarith)
      (by
        have : u * H ≤ u * (2 * w) := mul_le_mul_of_nonneg_left hH2 hu
        have e : u * (B + w) = u * B + u * w := by ring
        linarith)
    have hR := orthogonal_entry hg.pose b a
    have e12 : |e1 - e2 - g.pose.R b a * H| ≤ 2 * δ' := by
      rw [hd1, hd2, show y0 a + g.pose.R b a * (val x1 - val (p b)) - m * g.s - (y0 a + g.pose.R b a * (val x2 - val (p b)) - m * g.s) -
        g.pose.R b a * H = g.pose.R b a * (val x1 - val x2 - H) by ring, abs_mul]
      calc _ ≤ 1 * (2 * δ') := mul_le_mul hR h12 (abs_nonneg _) zero_le_one
        _ = _ := one_mul _
    have kn' : |kept (A.sub e1' e2') - g.pose.R b a * H| ≤ 2 * (E + 60 * T + δ) + 19 * (u * (17 * (N * g.s) + δ)) + 2 * δ' := by
      have t := abs_sub_le (kept (A.sub e1' e2')) (e1 - e2) (g.pose.R b a * H)
      linarith
    have hRH : |g.pose.R b a * H| ≤ 7 * H := by
      rw [abs_mul, abs_of_pos hHpos]
      exact mul_le_mul_of_nonneg_right (by linarith) hHpos.le
    have key := fair_ratio h hu hu' hr.eta kn' kd hHpos (by linarith) hRH
    rw [mul_div_assoc, div_self hHpos.ne', mul_one] at key
    refine key.trans (add_le_add ?_ le_rfl)
    have eM : u * (17 * (N * g.s) + δ) = 17 * T + u * δ := by rw [hT]; ring
    have ud : u * δ ≤ 1 / 10 ^ 5 * δ := mul_le_mul_of_nonneg_right hu' hδ0
    have ud0 : 0 ≤ u * δ := mul_nonneg hu hδ0
    rw [eM]
    calc _ ≤ (3 * E + 500 * T + 3 * δ + 61 * δ') / H := div_le_div_of_nonneg_right (by linarith) hHpos.le
      _ ≤ _ := div_le_div_of_nonneg_left (by positivity) hw0 hH
  have sm : |val (A.sub (p b) (A.abs window)) - (val (p b) - w)| ≤ δ' := by
    have t := h.sub (p b) (A.abs window)
    rw [hw, abs_of_pos hw0] at t
    have : u * (|val (p b)| + w) ≤ u * (B + w) := mul_le_mul_of_nonneg_left (by linarith [hB b]) hu
    linarith
  have sp : |val (A.add (p b) (A.abs window)) - (val (p b) + w)| ≤ δ' := by
    have t := h.add (p b) (A.abs window)
    rw [hw, abs_of_pos hw0] at t
    have : u * (|val (p b)| + w) ≤ u * (B + w) := mul_le_mul_of_nonneg_left (by linarith [hB b]) hu
    linarith
  generalize A.sub (p b) (A.abs window) = xm at *
  generalize A.add (p b) (A.abs window) = xp at *
  have rm := abs_le.1 sm
  have rp := abs_le.1 sp
  have hxm : |val xm - val (p b)| ≤ w + δ' := by rw [abs_le]; constructor <;> linarith
  have hxp : |val xp - val (p b)| ≤ w + δ' := by rw [abs_le]; constructor <;> linarith
  have hx0 : |val (p b) - val (p b)| ≤ w + δ' := by rw [sub_self, abs_zero]; positivity
  have self : flMoved A p b (p b) = ⟨p, A.one⟩ := by
    unfold flMoved
    congr 1
    funext c
    by_cases hcb : c = b
    · rw [if_pos hcb, hcb]
    · rw [if_neg hcb]
  rcases hce : answered (flEstimate A fg ⟨p, A.one⟩) with _ | c
  · rw [hce] at hvb; cases hvb
  rcases hm : answered (flEstimate A fg (flMoved A p b xm)) with _ | m' <;>
  rcases hpl : answered (flEstimate A fg (flMoved A p b xp)) with _ | pl
  · rw [hce, hm, hpl] at hvb; cases hvb
  · rw [hce, hm, hpl] at hvb
    rw [← Option.some.inj hvb]
    refine pair _ _ _ _ w le_rfl (by linarith) hxp hx0 ?_ hpl (by rw [self]; exact hce)
    rw [abs_le]; constructor <;> linarith
  · rw [hce, hm, hpl] at hvb
    rw [← Option.some.inj hvb]
    refine pair _ _ _ _ w le_rfl (by linarith) hx0 hxm ?_ (by rw [self]; exact hce) hm
    rw [abs_le]; constructor <;> linarith
  · rw [hce, hm, hpl] at hvb
    rw [← Option.some.inj hvb]
    refine pair _ _ _ _ (2 * w) (by linarith) le_rfl hxp hxm ?_ hpl hm
    rw [abs_le]; constructor <;> linarith

end

section
variable {filled : Idx → Bool} {left : Bool} {g : SDFGrid ℝ} {a : Fin 3} {m : ℕ} {N X δ : ℝ} {P : Pose ℝ} {norm : (Fin 3 → FusedReal) → FusedReal}
  {interp : (Fin 3 → FusedReal) → (Fin 3 → FusedReal) → (Bool → Bool → Bool → FusedReal) → (Fin 3 → FusedReal) → FusedReal}
  {toWorld rotate : (Fin 3 → FusedReal) → Fin 3 → FusedReal}

theorem edge_tolerance {s w B v c : ℝ} (hs : 0 ≤ s) (h1 : 1 ≤ N) (hw : (2 : ℝ) ^ (-1000 : ℤ) ≤ w) (hB : 0 ≤ B)
    (hc : 162 * (v + 1 / 2 ^ 51) + 1500 / 2 ^ 53 ≤ c) :
    (3 * ((174000 * (3 * 2 ^ (-53 : ℤ) * N) + 54 * (v + 2 ^ (-51 : ℤ))) * (N * s)) + 500 * (3 * 2 ^ (-53 : ℤ) * N) * s + 3 * δ +
      61 * (3 * 2 ^ (-53 : ℤ) * (B + w) + 3 * 2 ^ (-1075 : ℤ))) / w + 18 * (3 * 2 ^ (-53 : ℤ)) ≤
    ((c * N + N ^ 2 / 2 ^ 32) * s + 3 * δ + B / 2 ^ 45) / w + 1 / 2 ^ 44 := by
  have hw0 : 0 < w := lt_of_lt_of_le (by positivity) hw
  have e53 : (2 : ℝ) ^ (-53 : ℤ) = 1 / 2 ^ 53 := by rw [zpow_neg, one_div]; norm_cast
  have e51 : (2 : ℝ) ^ (-51 : ℤ) = 1 / 2 ^ 51 := by rw [zpow_neg, one_div]; norm_cast
  have e : (2 : ℝ) ^ (-1075 : ℤ) = 1 / 2 ^ 75 * 2 ^ (-1000 : ℤ) := by
    rw [show (-1075 : ℤ) = -75 + -1000 by norm_num, zpow_add₀ (by norm_num), zpow_neg (2 : ℝ) 75, one_div]
    norm_cast
  rw [e53, e51, e]
  generalize (2 : ℝ) ^ (-1000 : ℤ) = z at *
  have key : 3 * ((174000 * (3 * (1 / 2 ^ 53) * N) + 54 * (v + 1 / 2 ^ 51)) * (N * s)) + 500 * (3 * (1 / 2 ^ 53) * N) * s + 3 * δ +
      61 * (3 * (1 / 2 ^ 53) * (B + w) + 3 * (1 / 2 ^ 75 * z)) ≤ (c * N + N ^ 2 / 2 ^ 32) * s + 3 * δ + B / 2 ^ 45 + 256 / 2 ^ 53 * w := by
    have k1 : (162 * (v + 1 / 2 ^ 51) + 1500 / 2 ^ 53) * (N * s) ≤ c * (N * s) := mul_le_mul_of_nonneg_right hc (by positivity)
    have k2 : 0 ≤ N ^ 2 * s := by positivity
    have k3 : 3 * ((174000 * (3 * (1 / 2 ^ 53) * N) + 54 * (v + 1 / 2 ^ 51)) * (N * s)) + 500 * (3 * (1 / 2 ^ 53) * N) * s =
        1566000 / 2 ^ 53 * (N ^ 2 * s) + (162 * (v + 1 / 2 ^ 51) + 1500 / 2 ^ 53) * (N * s) := by ring
    have k4 : (c * N + N ^ 2 / 2 ^ 32) * s = c * (N * s) + 1 / 2 ^ 32 * (N ^ 2 * s) := by ring
    rw [k3, k4]
    generalize N ^ 2 * s = m at *
    generalize (162 * (v + 1 / 2 ^ 51) + 1500 / 2 ^ 53) * (N * s) = m' at *
    norm_num
    linarith
  have d := div_le_div_of_nonneg_right key hw0.le
  have e2 : ((c * N + N ^ 2 / 2 ^ 32) * s + 3 * δ + B / 2 ^ 45 + 256 / 2 ^ 53 * w) / w =
      ((c * N + N ^ 2 / 2 ^ 32) * s + 3 * δ + B / 2 ^ 45) / w + 256 / 2 ^ 53 := by
    rw [add_div _ (256 / 2 ^ 53 * w), mul_div_assoc, div_self hw0.ne', mul_one]
  rw [e2] at d
  refine (add_le_add d le_rfl).trans ?_
  rw [add_assoc]
  refine add_le_add le_rfl ?_
  norm_num

/-- C92, `SignedDistanceField<float>` queried in `double` with fused products and sums, at all locations with a fine gradient. -/
theorem C92_wall_everywhere_float {toGrid : Vec4 FusedReal → Fin 3 → FusedReal} (hg : GeneratedBy floatSDF filled false g)
    (hwall : IsWall g.dims a m filled) (hs : (2 : ℝ) ^ (-100 : ℤ) ≤ g.s)
    (hs' : g.s ≤ 2 ^ (100 : ℤ)) (h1 : 1 ≤ N) (hN' : N ≤ 2 ^ 34) (hN : ∀ a, (axisCells g.dims a : ℝ) ≤ N)
    (hint : interp = flTrilinear (fusedReal roundDouble left) ∨ interp = flBilinear (fusedReal roundDouble left))
    {p : Fin 3 → FusedReal} {window : FusedReal} {w B : ℝ}
    (hw : |FusedReal.kept roundDouble window| = w) (hw0 : (2 : ℝ) ^ (-1000 : ℤ) ≤ w) (hB : ∀ a, |(p a).1| ≤ B) (hBw : B ≤ 2 ^ 40 * w)
    (hloc : FairLocated (fusedQuery roundDouble left norm interp) Prod.fst δ w g (g.inMemory roundDouble toGrid toWorld rotate) p)
    {v' : Fin 3 → FusedReal}
    (hv' : flFine (fusedQuery roundDouble left norm interp) (g.inMemory roundDouble toGrid toWorld rotate) p window = .value v') (b : Fin 3) :
    |FusedReal.kept roundDouble (v' b) - g.pose.R b a| ≤ ((1 / 2 ^ 16 * N + N ^ 2 / 2 ^ 32) * g.s + 3 * δ + B / 2 ^ 45) / w + 1 / 2 ^ 44 := by
  have hpos : 0 < g.s := lt_of_lt_of_le (by positivity) hs
  have hwp : 0 < w := lt_of_lt_of_le (by positivity) hw0
  refine (C92_wall_everywhere hg hwall rfl (k := 24) (emin := -149) rfl rfl (by norm_num) (by norm_num) hs fused_double_fair
    (fair_room_double hs hs' h1 hN') (inMemory_double hs hs') hint hN hw hwp hB (fair_window hw0 hBw) hloc hv' b).trans
    (edge_tolerance hpos.le h1 hw0 ((abs_nonneg _).trans (hB 0)) ?_)
  norm_num

/-- C92. The same for locations in the world. -/
theorem C92_wall_everywhere_world_float {toGrid : Vec4 ℝ → Fin 3 → ℝ} (hg : GeneratedBy floatSDF filled false g)
    (hwall : IsWall g.dims a m filled) (hP : StoredPose P g.pose δ)
    (hrun : ToGridRuns roundDouble P toGrid) (hs : (2 : ℝ) ^ (-100 : ℤ) ≤ g.s) (hs' : g.s ≤ 2 ^ (100 : ℤ)) (h1 : 1 ≤ N) (hN' : N ≤ 2 ^ 34)
    (hN : ∀ a, (axisCells g.dims a : ℝ) ≤ N)
    (hint : interp = flTrilinear (fusedReal roundDouble left) ∨ interp = flBilinear (fusedReal roundDouble left))
    {p : Fin 3 → FusedReal} {window : FusedReal} {w : ℝ}
    (hw : |FusedReal.kept roundDouble window| = w) (hw0 : (2 : ℝ) ^ (-1000 : ℤ) ≤ w)
    (ht : ∀ a, |g.pose.t a| ≤ X) (hp : ∀ a, |(p a).1| + 2 * w ≤ X / 2) (hXw : X ≤ 2 ^ 40 * w) {v' : Fin 3 → FusedReal}
    (hv' : flFine (fusedQuery roundDouble left norm interp) (g.inMemory roundDouble (storedToGrid roundDouble toGrid) toWorld rotate) p window =
      .value v') (b : Fin 3) :
    |FusedReal.kept roundDouble (v' b) - g.pose.R b a| ≤
      ((1 / 2 ^ 16 * N + N ^ 2 / 2 ^ 32) * g.s + 3 * ((2 ^ (-46 : ℤ) + 6 * δ) * X) + X / 2 ^ 45) / w + 1 / 2 ^ 44 := by
  have hwp : 0 < w := lt_of_lt_of_le (by positivity) hw0
  have hwX : w ≤ X := by
    have := hp 0
    have := abs_nonneg (p 0).1
    linarith
  exact C92_wall_everywhere_float hg hwall hs hs' h1 hN' hN hint hw hw0 (B := X) (fun a => by have := hp a; linarith) hXw
    (C91_located hP hg.pose hrun (hw0.trans hwX) ht hp) hv' b

/-- C92, `SignedDistanceField<double>` queried in `double` with fused products and sums, at all locations with a fine gradient. -/
theorem C92_wall_everywhere_double {toGrid : Vec4 FusedReal → Fin 3 → FusedReal} (hg : GeneratedBy doubleSDF filled false g)
    (hwall : IsWall g.dims a m filled) (hs : (2 : ℝ) ^ (-100 : ℤ) ≤ g.s)
    (hs' : g.s ≤ 2 ^ (100 : ℤ)) (h1 : 1 ≤ N) (hN' : N ≤ 2 ^ 34) (hN : ∀ a, (axisCells g.dims a : ℝ) ≤ N)
    (hint : interp = flTrilinear (fusedReal roundDouble left) ∨ interp = flBilinear (fusedReal roundDouble left))
    {p : Fin 3 → FusedReal} {window : FusedReal} {w B : ℝ}
    (hw : |FusedReal.kept roundDouble window| = w) (hw0 : (2 : ℝ) ^ (-1000 : ℤ) ≤ w) (hB : ∀ a, |(p a).1| ≤ B) (hBw : B ≤ 2 ^ 40 * w)
    (hloc : FairLocated (fusedQuery roundDouble left norm interp) Prod.fst δ w g (g.inMemory roundDouble toGrid toWorld rotate) p)
    {v' : Fin 3 → FusedReal}
    (hv' : flFine (fusedQuery roundDouble left norm interp) (g.inMemory roundDouble toGrid toWorld rotate) p window = .value v') (b : Fin 3) :
    |FusedReal.kept roundDouble (v' b) - g.pose.R b a| ≤ ((1 / 2 ^ 41 * N + N ^ 2 / 2 ^ 32) * g.s + 3 * δ + B / 2 ^ 45) / w + 1 / 2 ^ 44 := by
  have hpos : 0 < g.s := lt_of_lt_of_le (by positivity) hs
  have hwp : 0 < w := lt_of_lt_of_le (by positivity) hw0
  refine (C92_wall_everywhere hg hwall rfl (k := 53) (emin := -1074) rfl rfl (by norm_num) (by norm_num) hs fused_double_fair
    (fair_room_double hs hs' h1 hN') (inMemory_double hs hs') hint hN hw hwp hB (fair_window hw0 hBw) hloc hv' b).trans
    (edge_tolerance hpos.le h1 hw0 ((abs_nonneg _).trans (hB 0)) ?_)
  norm_num

/-- C92. The same for locations in the world. -/
theorem C92_wall_everywhere_world_double {toGrid : Vec4 ℝ → Fin 3 → ℝ} (hg : GeneratedBy doubleSDF filled false g)
    (hwall : IsWall g.dims a m filled) (hP : StoredPose P g.pose δ)
    (hrun : ToGridRuns roundDouble P toGrid) (hs : (2 : ℝ) ^ (-100 : ℤ) ≤ g.s) (hs' : g.s ≤ 2 ^ (100 : ℤ)) (h1 : 1 ≤ N) (hN' : N ≤ 2 ^ 34)
    (hN : ∀ a, (axisCells g.dims a : ℝ) ≤ N)
    (hint : interp = flTrilinear (fusedReal roundDouble left) ∨ interp = flBilinear (fusedReal roundDouble left))
    {p : Fin 3 → FusedReal} {window : FusedReal} {w : ℝ}
    (hw : |FusedReal.kept roundDouble window| = w) (hw0 : (2 : ℝ) ^ (-1000 : ℤ) ≤ w)
    (ht : ∀ a, |g.pose.t a| ≤ X) (hp : ∀ a, |(p a).1| + 2 * w ≤ X / 2) (hXw : X ≤ 2 ^ 40 * w) {v' : Fin 3 → FusedReal}
    (hv' : flFine (fusedQuery roundDouble left norm interp) (g.inMemory roundDouble (storedToGrid roundDouble toGrid) toWorld rotate) p window =
      .value v') (b : Fin 3) :
    |FusedReal.kept roundDouble (v' b) - g.pose.R b a| ≤
      ((1 / 2 ^ 41 * N + N ^ 2 / 2 ^ 32) * g.s + 3 * ((2 ^ (-46 : ℤ) + 6 * δ) * X) + X / 2 ^ 45) / w + 1 / 2 ^ 44 := by
  have hwp : 0 < w := lt_of_lt_of_le (by positivity) hw0
  have hwX : w ≤ X := by
    have := hp 0
    have := abs_nonneg (p 0).1
    linarith
  exact C92_wall_everywhere_double hg hwall hs hs' h1 hN' hN hint hw hw0 (B := X) (fun a => by have := hp a; linarith) hXw
    (C91_located hP hg.pose hrun (hw0.trans hwX) ht hp) hv' b

end

/-- The hypotheses of `C92_wall_everywhere`, `C92_wall_everywhere_float` and `C92_wall_everywhere_world_float` are met: a row of 64 cells in a turned and moved
grid whose rotation is stored with rounding.  There is a gradient, and any is the direction of the row in the world. -/
example (left : Bool) : ∃ (g : SDFGrid ℝ) (toGrid : Vec4 ℝ → Fin 3 → ℝ) (v' : Fin 3 → FusedReal),
    GeneratedBy floatSDF (fun i => decide (i.1 = 0)) false g ∧ g.pose = slantPose ∧
    flFine (fusedQuery roundDouble left (fun _ => (0, false)) (flTrilinear (fusedReal roundDouble left)))
      (g.inMemory roundDouble (storedToGrid roundDouble toGrid) id id) slantStart (1 / 8, false) = .value v' ∧
    ∀ b, |FusedReal.kept roundDouble (v' b) - (![3 / 5, 4 / 5, 0] : Fin 3 → ℝ) b| ≤ 1 / 2 ^ 6 := by
  obtain ⟨g, hg, hd, hs, hP⟩ := C68_generated_exists exRow_ok slantPose_orthogonal (filled := fun i => decide (i.1 = 0)) false
    (i := (1, 0, 0)) (by decide) (by decide) (j := (0, 0, 0)) (by decide) (by decide)
  obtain ⟨toGrid, hrun⟩ := toGridRuns_exists roundDouble slantStored
  dsimp only at hd hs
  have hst : StoredPose slantStored g.pose (2 ^ (-52 : ℤ)) := by rw [hP]; exact slantStored_near
  have hR : ∀ b, g.pose.R b 0 = (![3 / 5, 4 / 5, 0] : Fin 3 → ℝ) b := by
    rw [hP]; intro b; fin_cases b <;> simp [slantPose]
  have s1 : (2 : ℝ) ^ (-100 : ℤ) ≤ g.s := by rw [hs]; norm_num
  have s2 : g.s ≤ (2 : ℝ) ^ (100 : ℤ) := by rw [hs]; norm_num
  have hN : ∀ a, (axisCells g.dims a : ℝ) ≤ 64 := by rw [hd]; intro a; fin_cases a <;> simp [axisCells]
  have ht : ∀ a, |g.pose.t a| ≤ 4096 * 4 := by rw [hP]; intro a; fin_cases a <;> simp [slantPose] <;> norm_num [abs_le]
  have hp : ∀ a, |(slantStart a).1| + 2 * (1 / 8) ≤ 4096 * 4 / 2 := fun a => by
    have : |(slantStart a).1| ≤ 2033 := slantPlace_size a
    linarith
  obtain ⟨v', r1, -⟩ := C92_wall_normal_world_float (left := left) (norm := fun _ => (0, false)) (toWorld := id) (rotate := id)
    (X := 4096 * 4) hg (by rw [hd]; exact row_wall) hst hrun s1 s2 (N := 64) (by norm_num) (by norm_num)
    hN (.inl rfl) (p := slantStart) (q := ![81 / 2, 1 / 2, 1 / 2])
    (by rw [hP]; intro a; fin_cases a <;> simp [slantPose, slantStart, slantPlace] <;> norm_num) eighthWindow eighth_tiny ht hp (by norm_num)
    (by rw [hd, hs]; intro a; fin_cases a <;> simp [axisCells] <;> norm_num)
  refine ⟨g, toGrid, v', hg, hP, r1, fun b => ?_⟩
  rw [← hR b]
  refine (C92_wall_everywhere_world_float hg (by rw [hd]; exact row_wall) hst hrun s1 s2 (by norm_num) (by norm_num) hN (.inl rfl) eighthWindow eighth_tiny
    ht hp (by norm_num) r1 b).trans ?_
  rw [hs]; norm_num

/-- The hypotheses of `C92_wall_everywhere`, `C92_wall_everywhere_double` and `C92_wall_everywhere_world_double` are met: a row of 64 cells in a turned and moved
grid whose rotation is stored with rounding.  There is a gradient, and any is the direction of the row in the world. -/
example (left : Bool) : ∃ (g : SDFGrid ℝ) (toGrid : Vec4 ℝ → Fin 3 → ℝ) (v' : Fin 3 → FusedReal),
    GeneratedBy doubleSDF (fun i => decide (i.1 = 0)) false g ∧ g.pose = slantPose ∧
    flFine (fusedQuery roundDouble left (fun _ => (0, false)) (flTrilinear (fusedReal roundDouble left)))
      (g.inMemory roundDouble (storedToGrid roundDouble toGrid) id id) slantStart (1 / 8, false) = .value v' ∧
    ∀ b, |FusedReal.kept roundDouble (v' b) - (![3 / 5, 4 / 5, 0] : Fin 3 → ℝ) b| ≤ 1 / 2 ^ 16 := by
  obtain ⟨g, hg, hd, hs, hP⟩ := C68_generated_exists (doubleGen_ok (d := ⟨64, 1, 1⟩) (by constructor <;> decide)) slantPose_orthogonal (filled := fun i => decide (i.1 = 0)) false
    (i := (1, 0, 0)) (by decide) (by decide) (j := (0, 0, 0)) (by decide) (by decide)
  obtain ⟨toGrid, hrun⟩ := toGridRuns_exists roundDouble slantStored
  dsimp only at hd hs
  have hst : StoredPose slantStored g.pose (2 ^ (-52 : ℤ)) := by rw [hP]; exact slantStored_near
  have hR : ∀ b, g.pose.R b 0 = (![3 / 5, 4 / 5, 0] : Fin 3 → ℝ) b := by
    rw [hP]; intro b; fin_cases b <;> simp [slantPose]
  have s1 : (2 : ℝ) ^ (-100 : ℤ) ≤ g.s := by rw [hs]; norm_num
  have s2 : g.s ≤ (2 : ℝ) ^ (100 : ℤ) := by rw [hs]; norm_num
  have hN : ∀ a, (axisCells g.dims a : ℝ) ≤ 64 := by rw [hd]; intro a; fin_cases a <;> simp [axisCells]
  have ht : ∀ a, |g.pose.t a| ≤ 4096 * 4 := by rw [hP]; intro a; fin_cases a <;> simp [slantPose] <;> norm_num [abs_le]
  have hp : ∀ a, |(slantStart a).1| + 2 * (1 / 8) ≤ 4096 * 4 / 2 := fun a => by
    have : |(slantStart a).1| ≤ 2033 := slantPlace_size a
    linarith
  obtain ⟨v', r1, -⟩ := C92_wall_normal_world_double (left := left) (norm := fun _ => (0, false)) (toWorld := id) (rotate := id)
    (X := 4096 * 4) hg (by rw [hd]; exact row_wall) hst hrun s1 s2 (N := 64) (by norm_num) (by norm_num)
    hN (.inl rfl) (p := slantStart) (q := ![81 / 2, 1 / 2, 1 / 2])
    (by rw [hP]; intro a; fin_cases a <;> simp [slantPose, slantStart, slantPlace] <;> norm_num) eighthWindow eighth_tiny ht hp (by norm_num)
    (by rw [hd, hs]; intro a; fin_cases a <;> simp [axisCells] <;> norm_num)
  refine ⟨g, toGrid, v', hg, hP, r1, fun b => ?_⟩
  rw [← hR b]
  refine (C92_wall_everywhere_world_double hg (by rw [hd]; exact row_wall) hst hrun s1 s2 (by norm_num) (by norm_num) hN (.inl rfl) eighthWindow eighth_tiny
    ht hp (by norm_num) r1 b).trans ?_
  rw [hs]; norm_num

/-- A location nearer to the edge of the grid than the window of the example. -/
noncomputable def edgePlace : Fin 3 → FusedReal := ![(1 / 8, false), (2, false), (2, false)]

theorem edgePlace_size (a : Fin 3) : |(edgePlace a).1| ≤ 8 := by
  fin_cases a <;> simp [edgePlace] <;> norm_num [abs_le]

/-- A fine gradient by a forward difference: along the first axis, the neighbour below is outside of the grid. -/
theorem edge_exists {g : SDFGrid ℝ} (hd : g.dims = ⟨8, 4, 4⟩) (hs : g.s = 1) (left : Bool) :
    (∃ v', flFine (fusedQuery roundDouble left (fun _ => (0, false)) (flTrilinear (fusedReal roundDouble left)))
      (g.inMemory roundDouble (fun l => l.v) id id) edgePlace (1 / 4, false) = .value v') ∧
    flEstimate (fusedQuery roundDouble left (fun _ => (0, false)) (flTrilinear (fusedReal roundDouble left))) (g.inMemory roundDouble (fun l => l.v) id id)
      (flMoved (fusedQuery roundDouble left (fun _ => (0, false)) (flTrilinear (fusedReal roundDouble left))) edgePlace 0
        ((fusedQuery roundDouble left (fun _ => (0, false)) (flTrilinear (fusedReal roundDouble left))).sub (edgePlace 0) (1 / 4, false))) = .empty := by
  have hN : ∀ a, (axisCells g.dims a : ℝ) ≤ 8 := by
    rw [hd]; intro a; fin_cases a <;> simp [axisCells] <;> norm_num
  have s1 : (2 : ℝ) ^ (-100 : ℤ) ≤ g.s := by rw [hs]; norm_num
  have s2 : g.s ≤ (2 : ℝ) ^ (100 : ℤ) := by rw [hs]; norm_num
  have e53 : (2 : ℝ) ^ (-53 : ℤ) = 1 / 2 ^ 53 := by rw [zpow_neg, one_div]; norm_cast
  have fair := fused_double_fair (left := left) (norm := fun _ => (0, false)) (interp := flTrilinear (fusedReal roundDouble left))
  have answer : ∀ L : Fin 3 → FusedReal, (∀ b, -(1 / 16) ≤ (L b).1 - (edgePlace b).1 ∧ (L b).1 - (edgePlace b).1 ≤ 1 / 2) →
      ∃ e, flEstimate (fusedQuery roundDouble left (fun _ => (0, false)) (flTrilinear (fusedReal roundDouble left)))
        (g.inMemory roundDouble (fun l => l.v) id id) ⟨L, (fusedQuery roundDouble left (fun _ => (0, false)) (flTrilinear (fusedReal roundDouble left))).one⟩ = .value e := by
    intro L hL
    refine (C86_estimate_defined fair (fair_room_double s1 s2 (N := 8) (by norm_num) (by norm_num)) (inMemory_double s1 s2) (.inl rfl) hN
      (fun _ => rfl)).1 fun b => ?_
    have h := hL b
    show _ ≤ (L b).1 ∧ (L b).1 < _
    rw [hs, hd, e53]
    fin_cases b <;> simp [edgePlace, axisCells] at h ⊢ <;> norm_num at h ⊢ <;> constructor <;> linarith
  constructor
  · refine fair_fine_defined (fun _ _ => rfl) (answer _ fun b => by rw [sub_self]; norm_num) fun b => .inr ?_
    refine answer _ fun c => ?_
    have hadd := fair.add (edgePlace b) ((1 / 4, false) : FusedReal)
    have hB := edgePlace_size b
    have eη : (2 : ℝ) ^ (-1075 : ℤ) ≤ 2 ^ (-53 : ℤ) := zpow_le_zpow_right₀ (by norm_num) (by norm_num)
    have ew : (fusedQuery roundDouble left (fun _ => (0, false)) (flTrilinear (fusedReal roundDouble left))).abs (1 / 4, false) = ((1 / 4, false) : FusedReal) :=
      Prod.ext fineWindow rfl
    rw [ew]
    by_cases hc : c = b
    · subst hc
      rw [if_pos rfl]
      dsimp only at hadd
      rw [abs_of_pos (show (0 : ℝ) < 1 / 4 by norm_num)] at hadd
      rw [e53] at hadd eη
      generalize (2 : ℝ) ^ (-1075 : ℤ) = z at *
      have h := abs_le.1 hadd
      norm_num at h eη ⊢
      constructor <;> linarith
    · rw [if_neg hc, sub_self]; norm_num
  · have hsub := fair.sub (edgePlace 0) ((1 / 4, false) : FusedReal)
    have hB := edgePlace_size 0
    have eη : (2 : ℝ) ^ (-1075 : ℤ) ≤ 2 ^ (-53 : ℤ) := zpow_le_zpow_right₀ (by norm_num) (by norm_num)
    refine (C86_estimate_defined fair (fair_room_double s1 s2 (N := 8) (by norm_num) (by norm_num)) (inMemory_double s1 s2) (.inl rfl) hN
      (fun _ => rfl)).2 ⟨0, .inl ?_⟩
    generalize (fusedQuery roundDouble left (fun _ => (0, false)) (flTrilinear (fusedReal roundDouble left))).sub (edgePlace 0) (1 / 4, false) = x at *
    show x.1 < _
    have e0 : (edgePlace 0).1 = 1 / 8 := rfl
    dsimp only at hsub
    rw [e0] at hsub hB
    rw [abs_of_pos (show (0 : ℝ) < 1 / 4 by norm_num), abs_of_pos (show (0 : ℝ) < 1 / 8 by norm_num)] at hsub
    rw [e53] at hsub eη
    rw [hs, e53]
    generalize (2 : ℝ) ^ (-1075 : ℤ) = z at *
    have h := abs_le.1 hsub
    norm_num at h eη ⊢
    linarith

/-- The hypotheses of `C92_wall_everywhere_float` are met at the edge of the grid: 8 × 4 × 4 cells of edge 1, the first layer filled.  At `(1/8, 2, 2)` and
with a window of 1/4 the difference along the first axis is one-sided (`edge_exists`); the gradient is `(1, 0, 0)` up to the given error. -/
example (left : Bool) : ∃ (g : SDFGrid ℝ) (v' : Fin 3 → FusedReal), GeneratedBy floatSDF (fun i => decide (i.1 = 0)) false g ∧
    flFine (fusedQuery roundDouble left (fun _ => (0, false)) (flTrilinear (fusedReal roundDouble left)))
      (g.inMemory roundDouble (fun l => l.v) id id) edgePlace (1 / 4, false) = .value v' ∧
    ∀ b, |FusedReal.kept roundDouble (v' b) - (![1, 0, 0] : Fin 3 → ℝ) b| ≤ 1 / 2 ^ 10 := by
  obtain ⟨g, hg, hd, hs, hP⟩ := C68_generated_exists exSlab_ok (P := ⟨fun i j => if i = j then 1 else 0, fun _ => 0⟩)
    (by constructor <;> intro a b <;> fin_cases a <;> fin_cases b <;> simp) (filled := fun i => decide (i.1 = 0)) false
    (i := (1, 0, 0)) (by decide) (by decide) (j := (0, 0, 0)) (by decide) (by decide)
  dsimp only at hd hs
  obtain ⟨⟨v', hv'⟩, -⟩ := edge_exists hd hs left
  have hR : ∀ b, g.pose.R b 0 = (![1, 0, 0] : Fin 3 → ℝ) b := by
    rw [hP]; intro b; fin_cases b <;> simp
  refine ⟨g, v', hg, hv', fun b => ?_⟩
  rw [← hR b]
  refine (C92_wall_everywhere_float (δ := 0) hg (by rw [hd]; exact slab_wall) (by rw [hs]; norm_num) (by rw [hs]; norm_num) (N := 8) (by norm_num)
    (by norm_num) (by rw [hd]; intro a; fin_cases a <;> simp [axisCells] <;> norm_num) (.inl rfl) fineWindow fine_tiny edgePlace_size (by norm_num) ?_ hv'
    b).trans ?_
  · intro L y hy _ c
    rw [hP] at hy
    have h := hy c
    dsimp only at h
    show |(L c).1 - y c| ≤ 0
    rw [h]
    fin_cases c <;> simp
  · rw [hs]; norm_num

end VGT
