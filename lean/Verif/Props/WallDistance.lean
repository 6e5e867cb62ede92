import Verif.Props.WallNormal

/-!
C93: estimated distances to a flat wall are right up to rounding, not only up to the size of a cell.
-/
set_option autoImplicit false

namespace VGT
open VGT.EDT VGT.Spec

section
variable {F : Type} {A : QueryArith F} {val kept : F → ℝ} {u η N : ℝ} {ro : Rounding} {filled : Idx → Bool} {g : SDFGrid ℝ} {fg : FlSDF F}
  {a : Fin 3} {m : ℕ}

/-- C93 in any accurate arithmetic: the answer is the signed distance of the computed coordinates to the surface of the wall. -/
theorem C93_wall_distance (hg : GeneratedBy ro filled false g) (hwall : IsWall g.dims a m filled) (hrr : ro.rr = roundDouble) {k : ℕ} {emin : ℤ}
    (hc : ro.cast = rne k emin) {v : ℝ} (hv : (2 : ℝ) ^ (-(k : ℤ)) = v) (hv2 : v ≤ 2 ^ (-24 : ℤ)) (hemin : emin + k ≤ -100)
    (hs : (2 : ℝ) ^ (-100 : ℤ) ≤ g.s) (h : FairQuery A val kept u η) (hr : FairRoom u η g.s N) (hf : FairField val kept u g fg)
    (hint : FormulaInterp A) (hN : ∀ a, (axisCells g.dims a : ℝ) ≤ N) {loc : Vec4 F} {e' : F} (he' : flEstimate A fg loc = .value e') :
    |kept e' - (val (fg.toGrid loc a) - m * g.s)| ≤
      (174000 * (u * N) + 54 * (v + 2 ^ (-51 : ℤ))) * (N * g.s) + 60 * (u * N) * g.s := by
  obtain ⟨g₀, hg0, hd, hs0, hP, hnear⟩ := hg.exact_twin hrr hc hv hv2 hemin hs hN
  have hv0 : 0 ≤ v := by rw [← hv]; positivity
  have hε1 : v + 2 ^ (-51 : ℤ) ≤ 1 / 4 := by norm_num at hv2 ⊢; linarith
  obtain ⟨hbd, hb0⟩ := twin_boundary hg0 hd hs0 hr.s0 hr.one_le (by positivity) hε1 hnear
  obtain ⟨q', p', e, hin, hq', hp', he, hb⟩ := fair_near hg0.pose hd hs0 hε1 hbd hb0 h hr hf hint hN he'
  have hw := wall_estimate hg0 (by rw [hd]; exact hwall) hp' (by rw [hd, hs0]; exact hin)
  rw [he] at hw
  have ee : e = q' a - m * g.s := by
    rw [← hs0]
    exact Option.some.inj (Option.some.inj hw)
  rw [ee] at hb
  have t := abs_sub_le (kept e') (q' a - m * g.s) (val (fg.toGrid loc a) - m * g.s)
  rw [show q' a - m * g.s - (val (fg.toGrid loc a) - m * g.s) = q' a - val (fg.toGrid loc a) by ring] at t
  linarith [hq' a]

end

section
variable {filled : Idx → Bool} {left : Bool} {g : SDFGrid ℝ} {a : Fin 3} {m : ℕ} {N X δ : ℝ} {P : Pose ℝ} {norm : (Fin 3 → FusedReal) → FusedReal}
  {interp : (Fin 3 → FusedReal) → (Fin 3 → FusedReal) → (Bool → Bool → Bool → FusedReal) → (Fin 3 → FusedReal) → FusedReal}
  {toWorld rotate : (Fin 3 → FusedReal) → Fin 3 → FusedReal}

/-- C93, `SignedDistanceField<float>` queried in `double` with fused products and sums. -/
theorem C93_wall_distance_float {toGrid : Vec4 FusedReal → Fin 3 → FusedReal} (hg : GeneratedBy floatSDF filled false g)
    (hwall : IsWall g.dims a m filled) (hs : (2 : ℝ) ^ (-100 : ℤ) ≤ g.s) (hs' : g.s ≤ 2 ^ (100 : ℤ)) (h1 : 1 ≤ N) (hN' : N ≤ 2 ^ 34)
    (hN : ∀ a, (axisCells g.dims a : ℝ) ≤ N)
    (hint : interp = flTrilinear (fusedReal roundDouble left) ∨ interp = flBilinear (fusedReal roundDouble left)) {loc : Vec4 FusedReal} {e' : FusedReal}
    (he' : flEstimate (fusedQuery roundDouble left norm interp) (g.inMemory roundDouble toGrid toWorld rotate) loc = .value e') :
    |FusedReal.kept roundDouble e' - ((toGrid loc a).1 - m * g.s)| ≤ (N / 2 ^ 18 + N ^ 2 / 2 ^ 34) * g.s := by
  have hpos : 0 < g.s := lt_of_lt_of_le (by positivity) hs
  refine (C93_wall_distance hg hwall rfl (k := 24) (emin := -149) rfl rfl (by norm_num) (by norm_num) hs fused_double_fair
    (fair_room_double hs hs' h1 hN') (inMemory_double hs hs') hint hN he').trans ?_
  have e1 : 0 ≤ N * g.s := by positivity
  have e2 : 0 ≤ N ^ 2 * g.s := by positivity
  norm_num
  nlinarith

/-- C93. For locations in the world, with last coordinate 1: `q` are the true coordinates in the frame of the grid. -/
theorem C93_wall_distance_world_float {toGrid : Vec4 ℝ → Fin 3 → ℝ} (hg : GeneratedBy floatSDF filled false g)
    (hwall : IsWall g.dims a m filled) (hP : StoredPose P g.pose δ) (hrun : ToGridRuns roundDouble P toGrid)
    (hs : (2 : ℝ) ^ (-100 : ℤ) ≤ g.s) (hs' : g.s ≤ 2 ^ (100 : ℤ)) (h1 : 1 ≤ N) (hN' : N ≤ 2 ^ 34) (hN : ∀ a, (axisCells g.dims a : ℝ) ≤ N)
    (hint : interp = flTrilinear (fusedReal roundDouble left) ∨ interp = flBilinear (fusedReal roundDouble left))
    {loc : Vec4 FusedReal} {e' : FusedReal} (hw : FusedReal.kept roundDouble loc.w = 1)
    (he' : flEstimate (fusedQuery roundDouble left norm interp) (g.inMemory roundDouble (storedToGrid roundDouble toGrid) toWorld rotate) loc = .value e')
    (hX : WithinWorld X g.pose.t (fun a => FusedReal.kept roundDouble (loc.v a))) {q : Fin 3 → ℝ}
    (hq : InFrame g.pose.R g.pose.t q (fun a => FusedReal.kept roundDouble (loc.v a))) :
    |FusedReal.kept roundDouble e' - (q a - m * g.s)| ≤ (N / 2 ^ 18 + N ^ 2 / 2 ^ 34) * g.s + (2 ^ (-47 : ℤ) + 6 * δ) * X := by
  have key := C93_wall_distance_float hg hwall hs hs' h1 hN' hN hint he'
  have e := C83_coordinate_error hP hg.pose hrun hX a
  rw [inFrameOf_unique hg.pose hq] at e
  have ev : (storedToGrid roundDouble toGrid loc a).1 = toGrid (point4 fun a => FusedReal.kept roundDouble (loc.v a)) a := by
    show toGrid ⟨_, FusedReal.kept roundDouble loc.w⟩ a = _
    rw [hw]
    rfl
  rw [ev] at key
  generalize toGrid (point4 fun a => FusedReal.kept roundDouble (loc.v a)) a = z at *
  have t := abs_sub_le (FusedReal.kept roundDouble e') (z - m * g.s) (q a - m * g.s)
  rw [show z - m * g.s - (q a - m * g.s) = z - q a by ring] at t
  exact t.trans (add_le_add key e)

/-- C93, `SignedDistanceField<double>` queried in `double` with fused products and sums. -/
theorem C93_wall_distance_double {toGrid : Vec4 FusedReal → Fin 3 → FusedReal} (hg : GeneratedBy doubleSDF filled false g)
    (hwall : IsWall g.dims a m filled) (hs : (2 : ℝ) ^ (-100 : ℤ) ≤ g.s) (hs' : g.s ≤ 2 ^ (100 : ℤ)) (h1 : 1 ≤ N) (hN' : N ≤ 2 ^ 34)
    (hN : ∀ a, (axisCells g.dims a : ℝ) ≤ N)
    (hint : interp = flTrilinear (fusedReal roundDouble left) ∨ interp = flBilinear (fusedReal roundDouble left)) {loc : Vec4 FusedReal} {e' : FusedReal}
    (he' : flEstimate (fusedQuery roundDouble left norm interp) (g.inMemory roundDouble toGrid toWorld rotate) loc = .value e') :
    |FusedReal.kept roundDouble e' - ((toGrid loc a).1 - m * g.s)| ≤ (N / 2 ^ 44 + N ^ 2 / 2 ^ 34) * g.s := by
  have hpos : 0 < g.s := lt_of_lt_of_le (by positivity) hs
  refine (C93_wall_distance hg hwall rfl (k := 53) (emin := -1074) rfl rfl (by norm_num) (by norm_num) hs fused_double_fair
    (fair_room_double hs hs' h1 hN') (inMemory_double hs hs') hint hN he').trans ?_
  have e1 : 0 ≤ N * g.s := by positivity
  have e2 : 0 ≤ N ^ 2 * g.s := by positivity
  norm_num
  nlinarith

/-- C93. For locations in the world, with last coordinate 1: `q` are the true coordinates in the frame of the grid. -/
theorem C93_wall_distance_world_double {toGrid : Vec4 ℝ → Fin 3 → ℝ} (hg : GeneratedBy doubleSDF filled false g)
    (hwall : IsWall g.dims a m filled) (hP : StoredPose P g.pose δ) (hrun : ToGridRuns roundDouble P toGrid)
    (hs : (2 : ℝ) ^ (-100 : ℤ) ≤ g.s) (hs' : g.s ≤ 2 ^ (100 : ℤ)) (h1 : 1 ≤ N) (hN' : N ≤ 2 ^ 34) (hN : ∀ a, (axisCells g.dims a : ℝ) ≤ N)
    (hint : interp = flTrilinear (fusedReal roundDouble left) ∨ interp = flBilinear (fusedReal roundDouble left))
    {loc : Vec4 FusedReal} {e' : FusedReal} (hw : FusedReal.kept roundDouble loc.w = 1)
    (he' : flEstimate (fusedQuery roundDouble left norm interp) (g.inMemory roundDouble (storedToGrid roundDouble toGrid) toWorld rotate) loc = .value e')
    (hX : WithinWorld X g.pose.t (fun a => FusedReal.kept roundDouble (loc.v a))) {q : Fin 3 → ℝ}
    (hq : InFrame g.pose.R g.pose.t q (fun a => FusedReal.kept roundDouble (loc.v a))) :
    |FusedReal.kept roundDouble e' - (q a - m * g.s)| ≤ (N / 2 ^ 44 + N ^ 2 / 2 ^ 34) * g.s + (2 ^ (-47 : ℤ) + 6 * δ) * X := by
  have key := C93_wall_distance_double hg hwall hs hs' h1 hN' hN hint he'
  have e := C83_coordinate_error hP hg.pose hrun hX a
  rw [inFrameOf_unique hg.pose hq] at e
  have ev : (storedToGrid roundDouble toGrid loc a).1 = toGrid (point4 fun a => FusedReal.kept roundDouble (loc.v a)) a := by
    show toGrid ⟨_, FusedReal.kept roundDouble loc.w⟩ a = _
    rw [hw]
    rfl
  rw [ev] at key
  generalize toGrid (point4 fun a => FusedReal.kept roundDouble (loc.v a)) a = z at *
  have t := abs_sub_le (FusedReal.kept roundDouble e') (z - m * g.s) (q a - m * g.s)
  rw [show z - m * g.s - (q a - m * g.s) = z - q a by ring] at t
  exact t.trans (add_le_add key e)

end

/-- The hypotheses of the theorems above are met: a row of 64 cells of edge 1 in a turned and moved grid whose rotation is stored with rounding.  The wall
ends 79/2 in front of the location. -/
example (left : Bool) : ∃ (g : SDFGrid ℝ) (toGrid : Vec4 ℝ → Fin 3 → ℝ) (e' : FusedReal),
    GeneratedBy floatSDF (fun i => decide (i.1 = 0)) false g ∧ g.pose = slantPose ∧ ToGridRuns roundDouble slantStored toGrid ∧
    flEstimate (fusedQuery roundDouble left (fun _ => (0, false)) (flTrilinear (fusedReal roundDouble left)))
      (g.inMemory roundDouble (storedToGrid roundDouble toGrid) id id) ⟨slantStart, (1, false)⟩ = .value e' ∧
    |FusedReal.kept roundDouble e' - 79 / 2| ≤ 1 / 2 ^ 10 := by
  obtain ⟨g, hg, hd, hs, hP⟩ := C68_generated_exists exRow_ok slantPose_orthogonal (filled := fun i => decide (i.1 = 0)) false
    (i := (1, 0, 0)) (by decide) (by decide) (j := (0, 0, 0)) (by decide) (by decide)
  obtain ⟨toGrid, hrun⟩ := toGridRuns_exists roundDouble slantStored
  dsimp only at hd hs
  have hst : StoredPose slantStored g.pose (2 ^ (-52 : ℤ)) := by rw [hP]; exact slantStored_near
  have normal : (2 : ℝ) ^ (-1022 : ℤ) ≤ 4096 := le_trans (zpow_le_zpow_right₀ (by norm_num) (by norm_num : (-1022 : ℤ) ≤ 0)) (by norm_num)
  have origin : ∀ a, |g.pose.t a| ≤ 4096 := by
    rw [hP]; intro a; fin_cases a <;> simp [slantPose] <;> norm_num [abs_le]
  have kp : ∀ b, FusedReal.kept roundDouble (slantStart b) = slantPlace b := fun b => if_neg (by decide : ¬ (false = true))
  obtain ⟨⟨e', he'⟩, -⟩ := slant_exists hg.pose hd hs hP hrun left
  refine ⟨g, toGrid, e', hg, hP, hrun, he', ?_⟩
  have := C93_wall_distance_world_float (X := 4096) (loc := ⟨slantStart, (1, false)⟩) hg (by rw [hd]; exact row_wall) hst hrun
    (by rw [hs]; norm_num) (by rw [hs]; norm_num) (N := 64) (by norm_num) (by norm_num)
    (by rw [hd]; intro a; fin_cases a <;> simp [axisCells]) (.inl rfl) (if_neg (by decide : ¬ (false = true))) he' ⟨origin, fun a => by
        dsimp only
        rw [kp]
        linarith [slantPlace_size a], normal⟩ (q := ![81 / 2, 1 / 2, 1 / 2])
    (by rw [hP]; intro a; dsimp only; rw [kp]; fin_cases a <;> simp [slantPose, slantPlace] <;> norm_num)
  rw [hs] at this
  simp only [Matrix.cons_val_zero, Nat.cast_one, mul_one] at this
  rw [show (79 / 2 : ℝ) = 81 / 2 - 1 by norm_num]
  refine this.trans ?_
  norm_num

/-- The hypotheses of the theorems above are met: a row of 64 cells of edge 1 in a turned and moved grid whose rotation is stored with rounding.  The wall
ends 79/2 in front of the location. -/
example (left : Bool) : ∃ (g : SDFGrid ℝ) (toGrid : Vec4 ℝ → Fin 3 → ℝ) (e' : FusedReal),
    GeneratedBy doubleSDF (fun i => decide (i.1 = 0)) false g ∧ g.pose = slantPose ∧ ToGridRuns roundDouble slantStored toGrid ∧
    flEstimate (fusedQuery roundDouble left (fun _ => (0, false)) (flTrilinear (fusedReal roundDouble left)))
      (g.inMemory roundDouble (storedToGrid roundDouble toGrid) id id) ⟨slantStart, (1, false)⟩ = .value e' ∧
    |FusedReal.kept roundDouble e' - 79 / 2| ≤ 1 / 2 ^ 20 := by
  obtain ⟨g, hg, hd, hs, hP⟩ := C68_generated_exists (doubleGen_ok (d := ⟨64, 1, 1⟩) (by constructor <;> decide)) slantPose_orthogonal (filled := fun i => decide (i.1 = 0)) false
    (i := (1, 0, 0)) (by decide) (by decide) (j := (0, 0, 0)) (by decide) (by decide)
  obtain ⟨toGrid, hrun⟩ := toGridRuns_exists roundDouble slantStored
  dsimp only at hd hs
  have hst : StoredPose slantStored g.pose (2 ^ (-52 : ℤ)) := by rw [hP]; exact slantStored_near
  have normal : (2 : ℝ) ^ (-1022 : ℤ) ≤ 4096 := le_trans (zpow_le_zpow_right₀ (by norm_num) (by norm_num : (-1022 : ℤ) ≤ 0)) (by norm_num)
  have origin : ∀ a, |g.pose.t a| ≤ 4096 := by
    rw [hP]; intro a; fin_cases a <;> simp [slantPose] <;> norm_num [abs_le]
  have kp : ∀ b, FusedReal.kept roundDouble (slantStart b) = slantPlace b := fun b => if_neg (by decide : ¬ (false = true))
  obtain ⟨⟨e', he'⟩, -⟩ := slant_exists hg.pose hd hs hP hrun left
  refine ⟨g, toGrid, e', hg, hP, hrun, he', ?_⟩
  have := C93_wall_distance_world_double (X := 4096) (loc := ⟨slantStart, (1, false)⟩) hg (by rw [hd]; exact row_wall) hst hrun
    (by rw [hs]; norm_num) (by rw [hs]; norm_num) (N := 64) (by norm_num) (by norm_num)
    (by rw [hd]; intro a; fin_cases a <;> simp [axisCells]) (.inl rfl) (if_neg (by decide : ¬ (false = true))) he' ⟨origin, fun a => by
        dsimp only
        rw [kp]
        linarith [slantPlace_size a], normal⟩ (q := ![81 / 2, 1 / 2, 1 / 2])
    (by rw [hP]; intro a; dsimp only; rw [kp]; fin_cases a <;> simp [slantPose, slantPlace] <;> norm_num)
  rw [hs] at this
  simp only [Matrix.cons_val_zero, Nat.cast_one, mul_one] at this
  rw [show (79 / 2 : ℝ) = 81 / 2 - 1 by norm_num]
  refine this.trans ?_
  norm_num

end VGT
