import Verif.Props.Gradient

/-!
C19 (projection out of collision reaches the requested clearance) and C53 (it terminates).
-/
set_option autoImplicit false

namespace VGT
open VGT.EDT VGT.Spec

section
variable {K : Type} [Field K] [LinearOrder K] [IsStrictOrderedRing K] [FloorRing K]

theorem projectedPosition_pos {loc p : Vec4 K} (h : projectedPosition loc = .pos p) : p = loc ∧ loc.w = 1 := by
  unfold projectedPosition at h
  by_cases hw : loc.w = 1
  · simp only [hw, ne_eq, not_true_eq_false, if_false, Projection.pos.injEq] at h
    exact ⟨h.symm, hw⟩
  · simp [hw] at h

theorem projectLoop_pos {g : SDFGrid K} {norm : Vec K → K} {minDist margin maxStep : K} {fuel : ℕ} {loc : Vec4 K} {dist : K}
    (hd : g.estimate loc = some (some dist)) {p : Vec4 K}
    (h : g.projectLoop norm minDist margin maxStep fuel loc dist = some (.pos p)) :
    p.w = 1 ∧ ∃ v, g.estimate p = some (some v) ∧ minDist < v := by
  induction fuel generalizing loc dist with
  | zero =>
    unfold SDFGrid.projectLoop at h
    split_ifs at h with hle
    obtain ⟨rfl, hw⟩ := projectedPosition_pos (Option.some.inj h)
    exact ⟨hw, dist, hd, not_le.1 hle⟩
  | succ fuel ih =>
    unfold SDFGrid.projectLoop at h
    by_cases hle : dist ≤ minDist
    · rw [if_pos hle] at h
      cases hc : g.coarseAt loc true with
      | none => simp [hc] at h
      | some r =>
        cases r with
        | none => simp [hc] at h
        | some grad =>
          simp only [hc] at h
          by_cases hn : norm grad > g.s * (1 / 4)
          · rw [if_pos hn] at h
            cases he : g.estimate ⟨fun a => loc.v a + normalized norm grad a * min maxStep (margin - dist), loc.w⟩ with
            | none => simp [he] at h
            | some r =>
              cases r with
              | none => simp [he] at h
              | some dist' =>
                simp only [he] at h
                exact ih he h
          · rw [if_neg hn] at h; cases h
    · rw [if_neg hle] at h
      obtain ⟨rfl, hw⟩ := projectedPosition_pos (Option.some.inj h)
      exact ⟨hw, dist, hd, not_le.1 hle⟩

/-- C19. Whenever a projection started in the grid returns a position, the interpolated distance there exceeds the
requested minimum distance and the position is a proper point (`w = 1`). -/
theorem C19_result_is_clear {g : SDFGrid K} {norm : Vec K → K} {fuel : ℕ} {loc p : Vec4 K} {minDist mult : K}
    (hin : CellInGrid (axisCells g.dims) (g.indexOf loc)) (h : g.project norm fuel loc minDist mult = some (.pos p)) :
    p.w = 1 ∧ ∃ v, g.estimate p = some (some v) ∧ minDist < v := by
  unfold SDFGrid.project at h
  rw [if_pos (inGrid_axis.2 hin)] at h
  cases he : g.estimate loc with
  | none => simp [he] at h
  | some r =>
    cases r with
    | none => simp [he] at h
    | some dist =>
      simp only [he] at h
      exact projectLoop_pos he h

/-- C19. A point outside the grid is returned unchanged. -/
theorem C19_outside_unchanged {g : SDFGrid K} (hs : 0 < g.s) (hP : Orthogonal g.pose.R) (norm : Vec K → K) (fuel : ℕ)
    {p : Vec K} (minDist mult : K) (h : ¬ WorldIn (axisCells g.dims) g.s g.pose.R g.pose.t p) :
    g.project norm fuel (point4 p) minDist mult = some (.pos (point4 p)) := by
  unfold SDFGrid.project
  rw [if_neg (fun h' => h ((indexOf_worldIn hs hP).1 h'))]
  simp [projectedPosition, point4]

/-- C19. A point that already has the requested clearance is returned unchanged, without any iteration. -/
theorem C19_clear_unchanged {g : SDFGrid K} (norm : Vec K → K) (fuel : ℕ) {p : Vec K} {v minDist : K} (mult : K)
    (hv : g.estimate (point4 p) = some (some v)) (hc : minDist < v) :
    g.project norm fuel (point4 p) minDist mult = some (.pos (point4 p)) := by
  unfold SDFGrid.project
  split_ifs with hin
  · simp only [hv]
    unfold SDFGrid.projectLoop
    rw [if_neg (not_le.2 hc)]
    simp [projectedPosition, point4]
  · simp [projectedPosition, point4]

/-- C19, partial: every position built by the projection itself is a proper point.  Missing for the full claim: the
public three-argument constructor `ProjectedPosition(x, y, z)` (`C19_xyz_constructor_not_a_point`). -/
theorem C19_position_is_point_partial {g : SDFGrid K} {norm : Vec K → K} {fuel : ℕ} {loc p : Vec4 K} {minDist mult : K}
    (h : g.project norm fuel loc minDist mult = some (.pos p)) : p.w = 1 := by
  by_cases hin : inGrid g.dims (g.indexOf loc) = true
  · exact (C19_result_is_clear (inGrid_axis.1 hin) h).1
  · unfold SDFGrid.project at h
    rw [if_neg hin] at h
    obtain ⟨rfl, hw⟩ := projectedPosition_pos (Option.some.inj h)
    exact hw

/-- C19, negative part: the constructor from three coordinates stores `w = 0`, which the class's own check rejects. -/
theorem C19_xyz_constructor_not_a_point (x y z : K) :
    ∃ p : Vec4 K, projectedPositionXYZ x y z = .pos p ∧ p.w ≠ 1 ∧ projectedPosition p = .throws := by
  refine ⟨⟨![x, y, z], 0⟩, rfl, by simp, ?_⟩
  unfold projectedPosition
  simp

/-! ### C53 -/

/-- C53, partial: if along every productive step the estimate grows by at least `κ` per unit of length, the projection
finishes (with a position, an empty result or an exception) for every start and every target clearance.
Missing for the full claim: fields with ridges below the requested clearance, where the loop need not end
(`C53_can_loop_forever`). -/
theorem C53_projection_terminates_partial {g : SDFGrid K} (hs : 0 < g.s) {norm : Vec K → K} {minDist mult κ : K}
    (hmult : 0 < mult) (hκ : 0 < κ)
    (hgrow : ∀ (loc : Vec4 K) (grad : Vec K) (v v' step : K), g.coarseAt loc true = some (some grad) →
      norm grad > g.s * (1 / 4) → 0 < step → step ≤ g.s * mult → g.estimate loc = some (some v) →
      g.estimate ⟨fun a => loc.v a + normalized norm grad a * step, loc.w⟩ = some (some v') → v + κ * step ≤ v')
    (loc : Vec4 K) : ∃ N, ∀ fuel, N ≤ fuel → ∃ r, g.project norm fuel loc minDist mult = some r := by
  have hδ : 0 < κ * (g.s * mult * (1 / 1000)) := by positivity
  have hloop : ∀ (N : ℕ) (loc : Vec4 K) (dist : K), g.estimate loc = some (some dist) →
      minDist < dist + N * (κ * (g.s * mult * (1 / 1000))) → ∀ fuel, N ≤ fuel →
      ∃ r, g.projectLoop norm minDist (minDist + g.s * mult * (1 / 1000)) (g.s * mult) fuel loc dist = some r := by
    intro N
    induction N with
    | zero =>
      intro loc dist _ hlt fuel _
      unfold SDFGrid.projectLoop
      rw [if_neg (by simpa using hlt)]
      exact ⟨_, rfl⟩
    | succ N ih =>
      intro loc dist he hlt fuel hfuel
      obtain ⟨fuel, rfl⟩ : ∃ f, fuel = f + 1 := ⟨fuel - 1, by omega⟩
      unfold SDFGrid.projectLoop
      by_cases hle : dist ≤ minDist
      · rw [if_pos hle]
        cases hc : g.coarseAt loc true with
        | none => exact ⟨_, rfl⟩
        | some r =>
          cases r with
          | none => exact ⟨_, rfl⟩
          | some grad =>
            dsimp only
            by_cases hn : norm grad > g.s * (1 / 4)
            · rw [if_pos hn]
              cases he' : g.estimate ⟨fun a => loc.v a + normalized norm grad a *
                  min (g.s * mult) (minDist + g.s * mult * (1 / 1000) - dist), loc.w⟩ with
              | none => exact ⟨_, rfl⟩
              | some r =>
                cases r with
                | none => exact ⟨_, rfl⟩
                | some dist' =>
                  dsimp only
                  apply ih _ _ he' _ fuel (by omega)
                  have hm : 0 < g.s * mult := by positivity
                  have hstep : g.s * mult * (1 / 1000) ≤ min (g.s * mult) (minDist + g.s * mult * (1 / 1000) - dist) := by
                    apply le_min
                    · linarith
                    · linarith
                  have := hgrow loc grad dist dist' _ hc hn (by linarith [mul_pos hm (by norm_num : (0 : K) < 1 / 1000)])
                    (min_le_left _ _) he he'
                  have hk : κ * (g.s * mult * (1 / 1000)) ≤
                      κ * min (g.s * mult) (minDist + g.s * mult * (1 / 1000) - dist) := mul_le_mul_of_nonneg_left hstep hκ.le
                  push_cast at hlt
                  linarith
            · rw [if_neg hn]; exact ⟨_, rfl⟩
      · rw [if_neg hle]; exact ⟨_, rfl⟩
  unfold SDFGrid.project
  by_cases hin : inGrid g.dims (g.indexOf loc) = true
  · simp only [hin, if_true]
    cases he : g.estimate loc with
    | none => exact ⟨0, fun _ _ => ⟨_, rfl⟩⟩
    | some r =>
      cases r with
      | none => exact ⟨0, fun _ _ => ⟨_, rfl⟩⟩
      | some dist =>
        obtain ⟨N, hN⟩ : ∃ N : ℕ, minDist < dist + N * (κ * (g.s * mult * (1 / 1000))) := by
          refine ⟨(⌊(minDist - dist) / (κ * (g.s * mult * (1 / 1000)))⌋ + 1).toNat, ?_⟩
          have h1 := Int.lt_floor_add_one ((minDist - dist) / (κ * (g.s * mult * (1 / 1000))))
          rw [div_lt_iff₀ hδ] at h1
          have h2 : ((⌊(minDist - dist) / (κ * (g.s * mult * (1 / 1000)))⌋ + 1 : ℤ) : K) ≤
              (((⌊(minDist - dist) / (κ * (g.s * mult * (1 / 1000)))⌋ + 1).toNat : ℕ) : K) := by
            have := Int.self_le_toNat (⌊(minDist - dist) / (κ * (g.s * mult * (1 / 1000)))⌋ + 1)
            exact_mod_cast this
          push_cast at h2
          nlinarith
        exact ⟨N, fun fuel hf => hloop N loc dist he hN fuel hf⟩
  · simp only [hin]
    exact ⟨0, fun _ _ => ⟨_, rfl⟩⟩

end

/-! ### Concrete cases -/

/-- Identity placement. -/
def idPose : Pose ℚ := ⟨![![1, 0, 0], ![0, 1, 0], ![0, 0, 1]], ![0, 0, 0]⟩

/-- A norm on the vectors that occur in the witnesses. -/
def axisNorm (v : Vec ℚ) : ℚ := |v 0| + |v 1| + |v 2|

/-- A wall filling x < 2 of a 4×1×1 grid. -/
def exWallSDF : SDFGrid ℚ := ⟨⟨4, 1, 1⟩, 1, idPose, fun i => if i.1 = 0 then -2 else if i.1 = 1 then -1 else if i.1 = 2 then 1 else 2⟩

/-- Positions at which a projection ended. -/
def Projection.position? {K : Type} : Projection K → Option (Vec K)
  | .pos p => some p.v
  | _ => none

/-- A point 3/10 inside the wall is pushed out by steps of a tenth, to just over the face. -/
example : (exWallSDF.project axisNorm 10 (point4 ![17 / 10, 1 / 2, 1 / 2]) 0 (1 / 10)).bind Projection.position? =
    some ![20001 / 10000, 1 / 2, 1 / 2] := by decide +kernel

/-- The same query, started clear or outside the grid. -/
example : (exWallSDF.project axisNorm 0 (point4 ![5 / 2, 1 / 2, 1 / 2]) 0 (1 / 10)).bind Projection.position? =
      some ![5 / 2, 1 / 2, 1 / 2] ∧
    (exWallSDF.project axisNorm 0 (point4 ![-1, 1 / 2, 1 / 2]) 0 (1 / 10)).bind Projection.position? =
      some ![-1, 1 / 2, 1 / 2] := by decide +kernel

/-- Whether a projection threw. -/
def Projection.threw {K : Type} : Projection K → Bool
  | .throws => true
  | _ => false

theorem threw_some {K : Type} {o : Option (Projection K)} (h : o.map Projection.threw = some true) : o = some .throws := by
  rcases o with _ | (_ | _ | _) <;> simp_all [Projection.threw]

/-- C19, negative part: a point in an obstacle that reaches the edge of the grid is pushed off the grid, and the call
throws instead of returning an empty result. -/
theorem C19_can_throw :
    ∃ (g : SDFGrid ℚ) (p : Vec ℚ), 0 < g.s ∧ Orthogonal g.pose.R ∧ WorldIn (axisCells g.dims) g.s g.pose.R g.pose.t p ∧
      g.project axisNorm 10 (point4 p) 0 (1 / 10) = some .throws := by
  refine ⟨⟨⟨3, 1, 1⟩, 1, idPose, fun i => if i.1 = 0 then -3 else if i.1 = 1 then -2 else -1⟩, ![59 / 20, 1 / 2, 1 / 2],
    by decide +kernel, by unfold Orthogonal; decide +kernel,
    ⟨![59 / 20, 1 / 2, 1 / 2], by unfold InFrame; decide +kernel, by unfold InGridBox; decide +kernel⟩, ?_⟩
  exact threw_some (by decide +kernel)

/-- Two cells of equal, highest distance between lower ones. -/
def exRidge : SDFGrid ℚ := ⟨⟨4, 1, 1⟩, 1, idPose, fun i => if i.1 = 1 ∨ i.1 = 2 then 2 else 1⟩

theorem exRidge_loop (norm : Vec ℚ → ℚ) (hn1 : norm ![1 / 2, 0, 0] = 1 / 2) (hn2 : norm ![-(1 / 2), 0, 0] = 1 / 2)
    {minDist : ℚ} (h : 2 ≤ minDist) (fuel : ℕ) :
    exRidge.projectLoop norm minDist (minDist + 1 * (1 / 10) * (1 / 1000)) (1 * (1 / 10)) fuel (point4 ![39 / 20, 1 / 2, 1 / 2]) (3 / 2) = none ∧
    exRidge.projectLoop norm minDist (minDist + 1 * (1 / 10) * (1 / 1000)) (1 * (1 / 10)) fuel (point4 ![41 / 20, 1 / 2, 1 / 2]) (3 / 2) = none := by
  have hmin : min (1 * (1 / 10) : ℚ) (minDist + 1 * (1 / 10) * (1 / 1000) - 3 / 2) = 1 / 10 := by
    rw [min_eq_left] <;> linarith
  have c1 : exRidge.coarseAt (point4 ![39 / 20, 1 / 2, 1 / 2]) true = some (some ![1 / 2, 0, 0]) := by decide +kernel
  have c2 : exRidge.coarseAt (point4 ![41 / 20, 1 / 2, 1 / 2]) true = some (some ![-(1 / 2), 0, 0]) := by decide +kernel
  have e1 : exRidge.estimate (point4 ![39 / 20, 1 / 2, 1 / 2]) = some (some (3 / 2)) := by decide +kernel
  have e2 : exRidge.estimate (point4 ![41 / 20, 1 / 2, 1 / 2]) = some (some (3 / 2)) := by decide +kernel
  have hs : exRidge.s = 1 := rfl
  have s1 : (⟨fun a => (point4 ![39 / 20, 1 / 2, 1 / 2] : Vec4 ℚ).v a + normalized norm ![1 / 2, 0, 0] a * (1 / 10), 1⟩ : Vec4 ℚ) =
      point4 ![41 / 20, 1 / 2, 1 / 2] := by
    unfold normalized point4
    rw [hn1, if_pos (by norm_num), Vec4.mk.injEq]
    refine ⟨?_, rfl⟩
    funext a; fin_cases a <;> norm_num
  have s2 : (⟨fun a => (point4 ![41 / 20, 1 / 2, 1 / 2] : Vec4 ℚ).v a + normalized norm ![-(1 / 2), 0, 0] a * (1 / 10), 1⟩ : Vec4 ℚ) =
      point4 ![39 / 20, 1 / 2, 1 / 2] := by
    unfold normalized point4
    rw [hn2, if_pos (by norm_num), Vec4.mk.injEq]
    refine ⟨?_, rfl⟩
    funext a; fin_cases a <;> norm_num
  induction fuel with
  | zero =>
    constructor
    · unfold SDFGrid.projectLoop
      rw [if_pos (by linarith)]
    · unfold SDFGrid.projectLoop
      rw [if_pos (by linarith)]
  | succ fuel ih =>
    constructor
    · unfold SDFGrid.projectLoop
      rw [if_pos (by linarith)]
      simp only [c1, hn1, hs, hmin]
      rw [if_pos (by norm_num)]
      rw [show (point4 ![39 / 20, 1 / 2, 1 / 2] : Vec4 ℚ).w = 1 from rfl, s1]
      simp only [e2]
      exact ih.2
    · unfold SDFGrid.projectLoop
      rw [if_pos (by linarith)]
      simp only [c2, hn2, hs, hmin]
      rw [if_pos (by norm_num)]
      rw [show (point4 ![41 / 20, 1 / 2, 1 / 2] : Vec4 ℚ).w = 1 from rfl, s2]
      simp only [e1]
      exact ih.1

/-- C53, negative part: between two cells of highest distance the loop steps back and forth for ever if the requested
clearance is not reached there.  (`norm` is any function that agrees with the Euclidean norm on the two gradients.) -/
theorem C53_can_loop_forever (norm : Vec ℚ → ℚ) (hn : ∀ x : ℚ, norm ![x, 0, 0] = |x|) {minDist : ℚ} (h : 2 ≤ minDist) :
    ∃ (g : SDFGrid ℚ) (p : Vec ℚ), 0 < g.s ∧ Orthogonal g.pose.R ∧ WorldIn (axisCells g.dims) g.s g.pose.R g.pose.t p ∧
      ∀ fuel, g.project norm fuel (point4 p) minDist (1 / 10) = none := by
  refine ⟨exRidge, ![39 / 20, 1 / 2, 1 / 2], by decide +kernel, by unfold Orthogonal; decide +kernel,
    ⟨![39 / 20, 1 / 2, 1 / 2], by unfold InFrame; decide +kernel, by unfold InGridBox; decide +kernel⟩, ?_⟩
  intro fuel
  have e1 : exRidge.estimate (point4 ![39 / 20, 1 / 2, 1 / 2]) = some (some (3 / 2)) := by decide +kernel
  have hi : inGrid exRidge.dims (exRidge.indexOf (point4 ![39 / 20, 1 / 2, 1 / 2])) = true := by decide +kernel
  unfold SDFGrid.project
  rw [if_pos hi]
  simp only [e1]
  exact (exRidge_loop norm (by rw [hn]; norm_num) (by rw [hn]; norm_num) h fuel).1

/-- Such a norm exists, and so does such a clearance. -/
example : ∃ norm : Vec ℚ → ℚ, (∀ x : ℚ, norm ![x, 0, 0] = |x|) ∧ (2 : ℚ) ≤ 2 :=
  ⟨axisNorm, fun x => by simp [axisNorm], le_rfl⟩

theorem exWallSDF_inv (loc : Vec4 ℚ) : exWallSDF.pose.applyInv loc = loc := by
  obtain ⟨v, w⟩ := loc
  simp only [Pose.applyInv, exWallSDF, idPose, Vec4.mk.injEq, and_true]
  funext a; fin_cases a <;> simp

theorem exWallSDF_estimate (loc : Vec4 ℚ) {v : ℚ} (h : exWallSDF.estimate loc = some (some v)) : v = loc.v 0 - 2 := by
  have hin : inGrid exWallSDF.dims (exWallSDF.indexOf loc) = true := by
    by_contra hn
    rw [Bool.not_eq_true] at hn
    rw [estimate_out _ _ hn] at h
    cases h
  have hpt : exWallSDF.estimate loc = exWallSDF.estimate (point4 loc.v) := by
    unfold SDFGrid.estimate SDFGrid.interpolate SDFGrid.indexOf
    rw [exWallSDF_inv, exWallSDF_inv]
    rfl
  rw [hpt, estimate_affine (g := exWallSDF) (q := loc.v) (c0 := -2) (m := ![1, 0, 0]) (by decide +kernel)
    (by unfold Orthogonal; decide +kernel)] at h
  · have := Option.some.inj (Option.some.inj h)
    rw [← this]; simp; ring
  · intro a; fin_cases a <;> simp [exWallSDF, idPose]
  · have := (inGridBox_iff (d := exWallSDF.dims) (s := exWallSDF.s) (by decide +kernel) loc.v).1
    apply this
    unfold SDFGrid.indexOf at hin
    rw [exWallSDF_inv] at hin
    exact hin
  · decide +kernel
  · intro c hc
    have h0 := hc 0
    have h1 : c 0 = 0 ∨ c 0 = 1 ∨ c 0 = 2 ∨ c 0 = 3 := by
      simp [exWallSDF, axisCells] at h0
      omega
    unfold boundaryDist exWallSDF cellCentre
    rcases h1 with h | h | h | h <;> simp [h] <;> norm_num

theorem exWallSDF_coarse {loc : Vec4 ℚ} {grad : Vec ℚ} (h : exWallSDF.coarseAt loc true = some (some grad)) :
    normalized axisNorm grad = ![1, 0, 0] := by
  unfold SDFGrid.coarseAt at h
  have hin : inGrid exWallSDF.dims (exWallSDF.indexOf loc) = true := by
    by_contra hn
    rw [if_neg hn] at h
    cases h
  rw [if_pos hin] at h
  have hi := inGrid_axis.1 hin
  generalize exWallSDF.indexOf loc = i at h hi
  have h0 := hi 0
  have h1 := hi 1
  have h2 := hi 2
  simp [exWallSDF, axisCells] at h0 h1 h2
  have hc : (i 0 = 0 ∨ i 0 = 1 ∨ i 0 = 2 ∨ i 0 = 3) := by omega
  have hi3 : i = ![i 0, 0, 0] := by
    funext a; fin_cases a
    · rfl
    · show i 1 = 0; omega
    · show i 2 = 0; omega
  rw [hi3] at h
  have e0 : exWallSDF.coarse ![0, 0, 0] true = some (some ![1, 0, 0]) := by decide +kernel
  have e1 : exWallSDF.coarse ![1, 0, 0] true = some (some ![3 / 2, 0, 0]) := by decide +kernel
  have e2 : exWallSDF.coarse ![2, 0, 0] true = some (some ![3 / 2, 0, 0]) := by decide +kernel
  have e3 : exWallSDF.coarse ![3, 0, 0] true = some (some ![1, 0, 0]) := by decide +kernel
  have n1 : normalized axisNorm (![1, 0, 0] : Vec ℚ) = ![1, 0, 0] := by decide +kernel
  have n2 : normalized axisNorm (![3 / 2, 0, 0] : Vec ℚ) = ![1, 0, 0] := by decide +kernel
  rcases hc with hk | hk | hk | hk <;> rw [hk] at h
  · rw [e0] at h; rw [← Option.some.inj (Option.some.inj h)]; exact n1
  · rw [e1] at h; rw [← Option.some.inj (Option.some.inj h)]; exact n2
  · rw [e2] at h; rw [← Option.some.inj (Option.some.inj h)]; exact n2
  · rw [e3] at h; rw [← Option.some.inj (Option.some.inj h)]; exact n1

/-- The growth hypothesis of the partial theorem holds for the wall: the estimate is `x - 2` over the grid and every
coarse gradient points along +x, so every projection there ends. -/
example (loc : Vec4 ℚ) : ∃ N, ∀ fuel, N ≤ fuel → ∃ r, exWallSDF.project axisNorm fuel loc 100 (1 / 10) = some r := by
  refine C53_projection_terminates_partial (κ := 1) (by decide +kernel) (by norm_num) (by norm_num) ?_ loc
  intro loc grad v v' step hc _ _ _ hv hv'
  rw [exWallSDF_estimate _ hv, exWallSDF_estimate _ hv', exWallSDF_coarse hc]
  simp
  linarith

end VGT
