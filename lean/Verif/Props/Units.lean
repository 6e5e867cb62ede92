import Verif.Props.CoarseBounds
import Verif.Props.Extrema
import Verif.Props.Project

/-!
C62: what a change of the unit of length does to the answers of a signed distance field.
-/
set_option autoImplicit false

namespace VGT
open VGT.EDT VGT.Spec

section
variable {K : Type} [Field K] [LinearOrder K] [IsStrictOrderedRing K] [FloorRing K]

/-- `g'` is the field `g` with every length expressed in a unit `u` times smaller: resolution, placement and distances are `u`
times the numbers of `g`. -/
structure Spec.InUnit (u : K) (g g' : SDFGrid K) : Prop where
  dims : g'.dims = g.dims
  res : g'.s = u * g.s
  rot : g'.pose.R = g.pose.R
  trans : ∀ a, g'.pose.t a = u * g.pose.t a
  data : ∀ i, g.dims.In i → g'.data i = u * g.data i

/-- A point in the other unit. -/
def Spec.inUnit (u : K) (p : Fin 3 → K) : Fin 3 → K := fun a => u * p a

variable {u : K} {g g' : SDFGrid K}

theorem inUnit_get (h : InUnit u g g') (i : IVec) : g'.get i = (g.get i).map (u * ·) := by
  unfold SDFGrid.get getImm
  rw [h.dims]
  split_ifs with hi
  · rw [Option.map_some, h.data]
    unfold IVec.toIdx Dims.In at *
    dsimp only at *
    omega
  · rfl

theorem inUnit_inv (h : InUnit u g g') (v : Vec K) (w : K) :
    (g'.pose.applyInv ⟨inUnit u v, w⟩).v = inUnit u (g.pose.applyInv ⟨v, w⟩).v := by
  funext a
  simp only [Pose.applyInv, inUnit, h.rot, h.trans]
  ring

theorem inUnit_indexOf (hu : 0 < u) (h : InUnit u g g') (v : Vec K) (w : K) :
    g'.indexOf ⟨inUnit u v, w⟩ = g.indexOf ⟨v, w⟩ := by
  unfold SDFGrid.indexOf
  rw [inUnit_inv h, h.res]
  funext a
  unfold cellOf inUnit
  rw [mul_div_mul_left _ _ hu.ne']

theorem inUnit_centre (h : InUnit u g g') (i : IVec) : centre g'.s i = inUnit u (centre g.s i) := by
  funext a
  unfold centre inUnit
  rw [h.res]; ring

theorem inUnit_corrected (hu : 0 < u) (h : InUnit u g g') (i : IVec) : g'.corrected i = (g.corrected i).map (u * ·) := by
  unfold SDFGrid.corrected
  rw [inUnit_get h, h.res]
  cases g.get i with
  | none => rfl
  | some x =>
    simp only [Option.map_some, Option.some.injEq]
    by_cases hx : 0 ≤ x
    · rw [if_pos hx, if_pos (mul_nonneg hu.le hx)]; ring
    · rw [if_neg hx, if_neg (not_le.2 (mul_neg_of_pos_of_neg hu (not_le.1 hx)))]; ring

theorem inUnit_axisIndices (hu : 0 < u) (i n : ℤ) (x y : K) :
    axisIndices i n (u * x - u * y) = axisIndices i n (x - y) := by
  unfold axisIndices
  have : u * x - u * y ≥ 0 ↔ x - y ≥ 0 := by
    rw [← mul_sub]
    exact mul_nonneg_iff_of_pos_left hu
  simp only [this]

theorem inUnit_lerp (hu : 0 < u) (q lo hi vl vh : K) :
    u * vl + (u * q - u * lo) * ((u * vh - u * vl) / (u * hi - u * lo)) = u * (vl + (q - lo) * ((vh - vl) / (hi - lo))) := by
  rw [← mul_sub, ← mul_sub, ← mul_sub, mul_div_mul_left _ _ hu.ne']
  ring

theorem inUnit_trilinear (hu : 0 < u) (lo hi q : Vec K) (a b c d e f k l : K) :
    trilinear (inUnit u lo) (inUnit u hi) (u * a) (u * b) (u * c) (u * d) (u * e) (u * f) (u * k) (u * l) (inUnit u q) =
      u * trilinear lo hi a b c d e f k l q := by
  unfold trilinear inUnit
  simp only [inUnit_lerp hu]

theorem inUnit_estimate (hu : 0 < u) (h : InUnit u g g') (v : Vec K) (w : K) :
    g'.estimate ⟨inUnit u v, w⟩ = (g.estimate ⟨v, w⟩).map (Option.map (u * ·)) := by
  unfold SDFGrid.estimate
  rw [inUnit_indexOf hu h, h.dims]
  split_ifs with hi
  · have : g'.interpolate ⟨inUnit u v, w⟩ (g.indexOf ⟨v, w⟩) = (g.interpolate ⟨v, w⟩ (g.indexOf ⟨v, w⟩)).map (u * ·) := by
      unfold SDFGrid.interpolate
      simp only [inUnit_inv h, inUnit_centre h, inUnit_corrected hu h, h.dims]
      generalize (g.pose.applyInv ⟨v, w⟩).v = q
      generalize g.indexOf ⟨v, w⟩ = i
      have e : ∀ a, inUnit u q a - inUnit u (centre g.s i) a = u * q a - u * centre g.s i a := fun a => rfl
      simp only [e, inUnit_axisIndices hu]
      generalize axisIndices (i 0) g.dims.nx (q 0 - centre g.s i 0) = x
      generalize axisIndices (i 1) g.dims.ny (q 1 - centre g.s i 1) = y
      generalize axisIndices (i 2) g.dims.nz (q 2 - centre g.s i 2) = z
      have hup : (fun a => inUnit u (centre g.s ![x.1, y.1, z.1]) a + g'.s) =
          inUnit u (fun a => centre g.s ![x.1, y.1, z.1] a + g.s) := by
        funext a
        unfold inUnit
        rw [h.res]; ring
      rw [hup]
      generalize g.corrected ![x.1, y.1, z.1] = o1
      generalize g.corrected ![x.1, y.1, z.2] = o2
      generalize g.corrected ![x.1, y.2, z.1] = o3
      generalize g.corrected ![x.1, y.2, z.2] = o4
      generalize g.corrected ![x.2, y.1, z.1] = o5
      generalize g.corrected ![x.2, y.1, z.2] = o6
      generalize g.corrected ![x.2, y.2, z.1] = o7
      generalize g.corrected ![x.2, y.2, z.2] = o8
      cases o1 with
      | none => rfl
      | some o1 => cases o2 with
        | none => rfl
        | some o2 => cases o3 with
          | none => rfl
          | some o3 => cases o4 with
            | none => rfl
            | some o4 => cases o5 with
              | none => rfl
              | some o5 => cases o6 with
                | none => rfl
                | some o6 => cases o7 with
                  | none => rfl
                  | some o7 => cases o8 with
                    | none => rfl
                    | some o8 =>
                      simp only [Option.map_some, Option.bind_some]
                      rw [inUnit_trilinear hu]
    rw [this]
    cases g.interpolate ⟨v, w⟩ (g.indexOf ⟨v, w⟩) <;> rfl
  · rfl

/-- C62. The interpolated distance is a length: in another unit it is the same length. -/
theorem C62_estimate (hu : 0 < u) (h : InUnit u g g') (p : Vec K) :
    (∀ x, g.estimate (point4 p) = some (some x) ↔ g'.estimate (point4 (inUnit u p)) = some (some (u * x))) ∧
    (g.estimate (point4 p) = some none ↔ g'.estimate (point4 (inUnit u p)) = some none) := by
  have e := inUnit_estimate hu h p 1
  unfold point4
  rw [e]
  constructor
  · intro x
    rcases g.estimate ⟨p, 1⟩ with _ | _ | y
    · simp
    · simp
    · simp [hu.ne']
  · rcases g.estimate ⟨p, 1⟩ with _ | _ | y <;> simp

theorem inUnit_interiorAxis (hu : 0 < u) (h : InUnit u g g') (i : IVec) (a : Fin 3) :
    g'.interiorAxis i a = g.interiorAxis i a := by
  unfold SDFGrid.interiorAxis
  rw [inUnit_get h, inUnit_get h, h.res]
  rcases g.get (moveTo i a (i a + 1)) with _ | x
  · rfl
  · rcases g.get (moveTo i a (i a - 1)) with _ | y
    · rfl
    · simp only [Option.map_some, Option.bind_some, Option.some.injEq]
      rw [← mul_sub, show 2 * (u * g.s) = u * (2 * g.s) by ring, mul_one_div, mul_one_div, mul_div_mul_left _ _ hu.ne']

theorem inUnit_edgeAxis (hu : 0 < u) (h : InUnit u g g') (i : IVec) (a : Fin 3) : g'.edgeAxis i a = g.edgeAxis i a := by
  unfold SDFGrid.edgeAxis
  simp only [h.dims]
  generalize min ((axisCells g.dims a : ℤ) - 1) (i a + 1) = hi
  generalize max 0 (i a - 1) = lo
  have e : ((hi - lo : ℤ) : K) * g'.s = u * (((hi - lo : ℤ) : K) * g.s) := by rw [h.res]; ring
  rw [e]
  generalize ((hi - lo : ℤ) : K) * g.s = inc
  by_cases hinc : inc > 0
  · rw [if_pos hinc, if_pos (mul_pos hu hinc), inUnit_get h, inUnit_get h]
    rcases g.get (moveTo i a hi) with _ | x
    · rfl
    · rcases g.get (moveTo i a lo) with _ | y
      · rfl
      · simp only [Option.map_some, Option.bind_some, Option.some.injEq]
        rw [← mul_sub, mul_one_div, mul_one_div, mul_div_mul_left _ _ hu.ne']
  · rw [if_neg hinc, if_neg]
    intro h'
    exact hinc (pos_of_mul_pos_right h' hu.le)

theorem inUnit_apply (h : InUnit u g g') (v : Vec K) : g'.pose.apply ⟨v, 0⟩ = g.pose.apply ⟨v, 0⟩ := by
  simp only [Pose.apply, h.rot, mul_zero]

/-- C62. The coarse gradient is a number without a unit: it is the same in every unit. -/
theorem C62_coarse (hu : 0 < u) (h : InUnit u g g') (i : IVec) (edge : Bool) : g'.coarse i edge = g.coarse i edge := by
  have hg : g'.coarseGrid i edge = g.coarseGrid i edge := by
    unfold SDFGrid.coarseGrid
    simp only [h.dims, inUnit_interiorAxis hu h, inUnit_edgeAxis hu h]
  unfold SDFGrid.coarse
  rw [hg]
  rcases g.coarseGrid i edge with _ | _ | v
  · rfl
  · rfl
  · simp only [Option.bind_some, inUnit_apply h]

theorem inUnit_coarseAt (hu : 0 < u) (h : InUnit u g g') (v : Vec K) (w : K) (edge : Bool) :
    g'.coarseAt ⟨inUnit u v, w⟩ edge = g.coarseAt ⟨v, w⟩ edge := by
  unfold SDFGrid.coarseAt
  rw [inUnit_indexOf hu h, h.dims, C62_coarse hu h]

/-- C62. So is the fine gradient, if the window is expressed in the new unit too. -/
theorem C62_fine (hu : 0 < u) (h : InUnit u g g') (p : Vec K) (window : K) :
    g'.fine (inUnit u p) (u * window) = g.fine p window := by
  have hd : ∀ x y : K, ∀ z w : K, fineDiv (u * x - u * y) (u * z - u * w) = fineDiv (x - y) (z - w) := by
    intro x y z w
    unfold fineDiv
    rw [← mul_sub, ← mul_sub, mul_div_mul_left _ _ hu.ne']
    simp only [mul_eq_zero, hu.ne', false_or]
  have hax : ∀ (k : K) (a : Fin 3), g'.fineAxis (inUnit u p) (u * k) a = g.fineAxis p k a := by
    intro k a
    have hmv : ∀ k : K, g'.estimateMoved (inUnit u p) a (u * k) = (g.estimateMoved p a k).map (Option.map (u * ·)) := by
      intro k
      unfold SDFGrid.estimateMoved point4
      rw [← inUnit_estimate hu h]
      congr 2
      funext b
      unfold inUnit
      by_cases hb : b = a
      · subst hb; simp only [Function.update_self]; ring
      · simp only [Function.update_of_ne hb]
    have hm := hmv (-k)
    rw [mul_neg] at hm
    unfold SDFGrid.fineAxis
    have h0 := inUnit_estimate hu h p 1
    have e1 : inUnit u p a - u * k = u * (p a - k) := by unfold inUnit; ring
    have e2 : inUnit u p a + u * k = u * (p a + k) := by unfold inUnit; ring
    have e3 : inUnit u p a = u * p a := rfl
    rw [hm, hmv k, e1, e2, e3]
    unfold point4
    rw [h0]
    rcases g.estimate ⟨p, 1⟩ with _ | _ | c <;> rcases g.estimateMoved p a (-k) with _ | _ | m <;>
      rcases g.estimateMoved p a k with _ | _ | q <;> simp only [Option.map_some, Option.map_none, axisFine, hd]
  unfold SDFGrid.fine point4
  rw [inUnit_indexOf hu h, h.dims, abs_mul, abs_of_pos hu, hax, hax, hax]

/-- The result of a projection, in the other unit. -/
def Spec.projectionInUnit (u : K) : Projection K → Projection K
  | .pos p => .pos ⟨inUnit u p.v, p.w⟩
  | .empty => .empty
  | .throws => .throws

theorem inUnit_projected (v : Vec K) (w : K) :
    projectedPosition ⟨inUnit u v, w⟩ = projectionInUnit u (projectedPosition ⟨v, w⟩) := by
  unfold projectedPosition
  dsimp only
  split_ifs <;> rfl

/-- C62, partial: a projection gives the same point in both units, provided every coarse gradient is on the same side of a
quarter of the resolution in both. Missing: that condition depends on the unit, because the code compares a gradient, which has
no unit, with a length (`C62_projection_depends_on_unit`). -/
theorem C62_projection_partial (hu : 0 < u) (h : InUnit u g g') {norm : Vec K → K}
    (hside : ∀ i v, g.coarse i true = some (some v) → (norm v > g.s * (1 / 4) ↔ norm v > u * g.s * (1 / 4)))
    (fuel : ℕ) (p : Vec K) (minDist mult : K) :
    g'.project norm fuel (point4 (inUnit u p)) (u * minDist) mult =
      (g.project norm fuel (point4 p) minDist mult).map (projectionInUnit u) := by
  have hloop : ∀ (margin maxStep : K) (fuel : ℕ) (v : Vec K) (dist : K),
      g'.projectLoop norm (u * minDist) (u * margin) (u * maxStep) fuel ⟨inUnit u v, 1⟩ (u * dist) =
        (g.projectLoop norm minDist margin maxStep fuel ⟨v, 1⟩ dist).map (projectionInUnit u) := by
    intro margin maxStep fuel
    induction fuel with
    | zero =>
      intro v dist
      unfold SDFGrid.projectLoop
      by_cases hle : dist ≤ minDist
      · rw [if_pos hle, if_pos (mul_le_mul_of_nonneg_left hle hu.le)]; rfl
      · rw [if_neg hle, if_neg (not_le.2 (mul_lt_mul_of_pos_left (not_le.1 hle) hu)), inUnit_projected]; rfl
    | succ fuel ih =>
      intro v dist
      unfold SDFGrid.projectLoop
      by_cases hle : dist ≤ minDist
      · rw [if_pos hle, if_pos (mul_le_mul_of_nonneg_left hle hu.le)]
        dsimp only
        rw [inUnit_coarseAt hu h]
        rcases hc : g.coarseAt ⟨v, 1⟩ true with _ | _ | grad
        · rfl
        · rfl
        · dsimp only
          have hc' : g.coarse (g.indexOf ⟨v, 1⟩) true = some (some grad) := by
            unfold SDFGrid.coarseAt at hc
            split_ifs at hc
            · exact hc
            · simp at hc
          have hiff := hside _ _ hc'
          by_cases hn : norm grad > g.s * (1 / 4)
          · rw [if_pos hn, if_pos (by rw [h.res]; exact hiff.1 hn)]
            have hstep : min (u * maxStep) (u * margin - u * dist) = u * min maxStep (margin - dist) := by
              rw [← mul_sub, mul_min_of_nonneg _ _ hu.le]
            have hloc : (fun a => inUnit u v a + normalized norm grad a * min (u * maxStep) (u * margin - u * dist)) =
                inUnit u (fun a => v a + normalized norm grad a * min maxStep (margin - dist)) := by
              funext a
              rw [hstep]
              unfold inUnit
              ring
            rw [hloc, inUnit_estimate hu h]
            rcases g.estimate ⟨fun a => v a + normalized norm grad a * min maxStep (margin - dist), 1⟩ with _ | _ | dist'
            · rfl
            · rfl
            · exact ih _ dist'
          · rw [if_neg hn, if_neg (by rw [h.res]; exact fun hx => hn (hiff.2 hx))]; rfl
      · rw [if_neg hle, if_neg (not_le.2 (mul_lt_mul_of_pos_left (not_le.1 hle) hu)), inUnit_projected]; rfl
  unfold SDFGrid.project point4
  rw [inUnit_indexOf hu h, h.dims]
  split_ifs with hi
  · rw [inUnit_estimate hu h]
    rcases g.estimate ⟨p, 1⟩ with _ | _ | dist
    · rfl
    · rfl
    · have e1 : u * minDist + g'.s * mult * (1 / 1000) = u * (minDist + g.s * mult * (1 / 1000)) := by rw [h.res]; ring
      have e2 : g'.s * mult = u * (g.s * mult) := by rw [h.res]; ring
      simp only [Option.map_some]
      rw [e1, e2]
      exact hloop _ _ fuel p dist
  · rw [inUnit_projected]; rfl

/-! ### Local extrema -/

/-- A value of the extrema map, in the other unit. -/
def Spec.extInUnit (u : K) : Ext K → Ext K
  | .off => .off
  | .at p => .at (inUnit u p)

/-- An extrema map, in the other unit. -/
def Spec.mapInUnit (u : K) (m : ExtMap K) : ExtMap K := fun i => (m i).map (extInUnit u)

theorem mapInUnit_set (d : Dims) (m : ExtMap K) (i : IVec) (e : Ext K) :
    (mapInUnit u m).set d i (extInUnit u e) = mapInUnit u (m.set d i e) := by
  unfold ExtMap.set mapInUnit
  split_ifs
  · funext j
    by_cases hj : j = i <;> simp [hj]
  · rfl

theorem mapInUnit_foldl (d : Dims) (e : Ext K) (l : List IVec) (m : ExtMap K) :
    l.foldl (fun m j => ExtMap.set d m j (extInUnit u e)) (mapInUnit u m) =
      mapInUnit u (l.foldl (fun m j => ExtMap.set d m j e) m) := by
  induction l generalizing m with
  | nil => rfl
  | cons j l ih => rw [List.foldl_cons, List.foldl_cons, mapInUnit_set, ih]

theorem extInUnit_centre (s : K) (i : IVec) : extInUnit u (.at (centre s i)) = .at (centre (u * s) i) := by
  show Ext.at (inUnit u (centre s i)) = _
  congr 1
  funext a
  unfold inUnit centre
  ring

theorem followLoop_inUnit (d : Dims) (s : K) (flat : IVec → Bool) (next : IVec → IVec) (m : ExtMap K) (fuel : ℕ) (cur : IVec)
    (path : List IVec) : followLoop d (u * s) flat next (mapInUnit u m) fuel cur path =
      (followLoop d s flat next m fuel cur path).map fun r => (extInUnit u r.1, r.2) := by
  induction fuel generalizing cur path with
  | zero => rfl
  | succ fuel ih =>
    unfold followLoop
    dsimp only
    by_cases h1 : next cur ∈ path
    · rw [if_pos h1, if_pos h1, Option.map_some, extInUnit_centre]
    · rw [if_neg h1, if_neg h1]
      by_cases h2 : inGrid d (next cur) = false
      · rw [if_pos h2, if_pos h2]; rfl
      · rw [if_neg h2, if_neg h2]
        unfold mapInUnit at ih ⊢
        rcases m (next cur) with _ | e
        · dsimp only [Option.map_none]
          by_cases h3 : flat (next cur) = true
          · rw [if_pos h3, if_pos h3, Option.map_some, extInUnit_centre]
          · rw [if_neg h3, if_neg h3, ih]
        · rfl

theorem followExtrema_inUnit (d : Dims) (s : K) (flat : IVec → Bool) (next : IVec → IVec) (fuel : ℕ) (m : ExtMap K) (i : IVec) :
    followExtrema d (u * s) flat next fuel (mapInUnit u m) i = (followExtrema d s flat next fuel m i).map (mapInUnit u) := by
  unfold followExtrema
  have hm : mapInUnit u m i = (m i).map (extInUnit u) := rfl
  rw [hm]
  rcases m i with _ | e
  · dsimp only [Option.map_none]
    by_cases h3 : flat i = true
    · rw [if_pos h3, if_pos h3, Option.map_some, ← extInUnit_centre, mapInUnit_set]
    · rw [if_neg h3, if_neg h3, followLoop_inUnit]
      rcases followLoop d s flat next m fuel i [i] with _ | r
      · rfl
      · simp only [Option.map_some, mapInUnit_foldl]
  · rfl

theorem extremaMap_inUnit (d : Dims) (s : K) (flat : IVec → Bool) (next : IVec → IVec) (fuel : ℕ) :
    extremaMap d (u * s) flat next fuel = (extremaMap d s flat next fuel).map (mapInUnit u) := by
  unfold extremaMap
  have : ∀ (l : List IVec) (o : Option (ExtMap K)),
      l.foldl (fun m i => m.bind fun m => followExtrema d (u * s) flat next fuel m i) (o.map (mapInUnit u)) =
        (l.foldl (fun m i => m.bind fun m => followExtrema d s flat next fuel m i) o).map (mapInUnit u) := by
    intro l
    induction l with
    | nil => intro o; rfl
    | cons i l ih =>
      intro o
      rw [List.foldl_cons, List.foldl_cons, ← ih]
      congr 1
      rcases o with _ | m
      · rfl
      · simp only [Option.map_some, Option.bind_some, followExtrema_inUnit]
  rw [← this]
  rfl

/-- C62, partial: the map of local extrema is the same in both units, provided every component of every coarse gradient is on
the same side of the threshold in both. Missing: the threshold is a length, the gradient is not
(`C62_extrema_depend_on_unit`). -/
theorem C62_extrema_partial (hu : 0 < u) (hs : 0 < g.s) (h : InUnit u g g')
    (hside : ∀ i v, g.coarse i true = some (some v) → ∀ a,
      (|v a| ≤ g.s * (6125 / 100000) ↔ |v a| ≤ u * g.s * (6125 / 100000))) (fuel : ℕ) :
    g'.extrema fuel = (g.extrema fuel).map (mapInUnit u) := by
  have hflat : g'.flatAt = g.flatAt := by
    funext i
    unfold SDFGrid.flatAt
    rw [C62_coarse hu h]
    rcases hc : g.coarse i true with _ | _ | v
    · rfl
    · rfl
    · dsimp only
      unfold effectivelyFlat
      simp only [h.res, ← hside i v hc]
  have hnext : g'.nextAt = g.nextAt := by
    funext i
    unfold SDFGrid.nextAt
    rw [C62_coarse hu h, inUnit_get h]
    rcases hc : g.coarse i true with _ | _ | v
    · rfl
    · rfl
    · rcases g.get i with _ | d
      · rfl
      · dsimp only [Option.map_some]
        funext a
        unfold nextFromGradient
        have hd : u * d < 0 ↔ d < 0 := by
          constructor
          · intro hx
            by_contra hn
            exact absurd (mul_nonneg hu.le (not_lt.1 hn)) (not_le.2 hx)
          · exact fun hx => mul_neg_of_pos_of_neg hu hx
        simp only [hd, h.res]
        have hside' : |(if d < 0 then v a * -1 else v a)| ≤ g.s * (6125 / 100000) ↔
            |(if d < 0 then v a * -1 else v a)| ≤ u * g.s * (6125 / 100000) := by
          split_ifs
          · rw [mul_neg_one, abs_neg]; exact hside i v hc a
          · exact hside i v hc a
        generalize (if d < 0 then v a * -1 else v a) = x at *
        have p1 : 0 < g.s * (6125 / 100000) := by positivity
        have p2 : 0 < u * g.s * (6125 / 100000) := by positivity
        generalize g.s * (6125 / 100000) = t at *
        generalize u * g.s * (6125 / 100000) = t' at *
        rw [abs_le, abs_le] at hside'
        have a1 : x > t' ↔ x > t := by
          constructor
          · intro hx
            by_contra hn
            have := hside'.1 ⟨by linarith, not_lt.1 hn⟩
            linarith [this.2]
          · intro hx
            by_contra hn
            have := hside'.2 ⟨by linarith, not_lt.1 hn⟩
            linarith [this.2]
        have a2 : x < -t' ↔ x < -t := by
          constructor
          · intro hx
            by_contra hn
            have := hside'.1 ⟨not_lt.1 hn, by linarith⟩
            linarith [this.1]
          · intro hx
            by_contra hn
            have := hside'.2 ⟨not_lt.1 hn, by linarith⟩
            linarith [this.1]
        simp only [a1, a2]
  unfold SDFGrid.extrema
  rw [hflat, hnext, h.dims, h.res]
  exact extremaMap_inUnit _ _ _ _ _

end

/-! ### Generated fields -/

section
variable {filled : Idx → Bool} {border : Bool} {g g' : SDFGrid ℝ}

/-- The Euclidean length. -/
noncomputable def Spec.length3 (v : Fin 3 → ℝ) : ℝ := Real.sqrt (v 0 ^ 2 + v 1 ^ 2 + v 2 ^ 2)

theorem length3_rotated {R : Fin 3 → Fin 3 → ℝ} (hR : Orthogonal R) {v w : Vec ℝ} (h : IsRotated R v w) :
    length3 w = length3 v := by
  unfold length3
  congr 1
  rw [h 0, h 1, h 2]
  have h00 := hR.1 0 0
  have h11 := hR.1 1 1
  have h22 := hR.1 2 2
  have h01 := hR.1 0 1
  have h02 := hR.1 0 2
  have h12 := hR.1 1 2
  simp at h00 h11 h22 h01 h02 h12
  linear_combination (v 0) ^ 2 * h00 + (v 1) ^ 2 * h11 + (v 2) ^ 2 * h22 + 2 * v 0 * v 1 * h01 + 2 * v 0 * v 2 * h02 +
    2 * v 1 * v 2 * h12

/-- No coarse gradient of a generated field is longer than `√12`. -/
theorem generated_length (h : Generated filled border g) {i : IVec} {edge : Bool} {w : Vec ℝ}
    (hw : g.coarse i edge = some (some w)) : length3 w ≤ Real.sqrt 12 := by
  obtain ⟨v, hrot, hv⟩ := C60_generated h hw
  obtain ⟨v', hrot', _, hv'⟩ := C60_formula h.pos hw
  have hvv : v = v' := by
    have inv : ∀ x : Vec ℝ, IsRotated g.pose.R x w → ∀ b, x b = g.pose.R 0 b * w 0 + g.pose.R 1 b * w 1 + g.pose.R 2 b * w 2 := by
      intro x hx b
      rw [hx 0, hx 1, hx 2]
      have h0 := h.pose.1 b 0
      have h1 := h.pose.1 b 1
      have h2 := h.pose.1 b 2
      have : x b = (if b = 0 then 1 else 0) * x 0 + (if b = 1 then 1 else 0) * x 1 + (if b = 2 then 1 else 0) * x 2 := by
        fin_cases b <;> simp
      rw [this, ← h0, ← h1, ← h2]; ring
    funext b
    rw [inv v hrot b, inv v' hrot' b]
  subst hvv
  rw [length3_rotated h.pose hrot]
  unfold length3
  apply Real.sqrt_le_sqrt
  have hle : ∀ a, v a ^ 2 ≤ 4 := by
    intro a
    have : |v a| ≤ 2 := by
      by_cases h1 : axisCells g.dims a = 1
      · rw [(hv' a).1 h1]; norm_num
      · obtain ⟨c1, c2, c3⟩ := hv a h1
        cases hb : filled (cellIdx (before i a)) <;> cases ha : filled (cellIdx (after (axisCells g.dims) i a))
        · exact (c1 (by rw [hb, ha])).trans (by norm_num)
        · by_cases hm : 0 < i a ∧ i a + 1 < axisCells g.dims a
          · have := (c3 hb ha).1 hm
            rw [abs_le]; constructor <;> linarith
          · rw [(c3 hb ha).2 hm]; norm_num
        · by_cases hm : 0 < i a ∧ i a + 1 < axisCells g.dims a
          · have := (c2 hb ha).1 hm
            rw [abs_le]; constructor <;> linarith
          · rw [(c2 hb ha).2 hm]; norm_num
        · exact (c1 (by rw [hb, ha])).trans (by norm_num)
    rw [abs_le] at this
    nlinarith [this.1, this.2]
  linarith [hle 0, hle 1, hle 2]

theorem sqrt12_lt : Real.sqrt 12 < 7 / 2 := by
  rw [Real.sqrt_lt' (by norm_num)]; norm_num

/-- C62, negative part, for every layout: if the resolution is a number of at least 14 (cells of 14 mm in millimetres, say),
no projection out of an obstacle is ever attempted on a generated field: every point of the grid without the requested clearance
gets the empty answer. -/
theorem C62_large_numbers_never_project (h : Generated filled border g) (hs : 14 ≤ g.s) {p : Vec ℝ} {x minDist : ℝ}
    (hx : g.estimate (point4 p) = some (some x)) (hle : x ≤ minDist) (mult : ℝ) (fuel : ℕ) :
    g.project length3 (fuel + 1) (point4 p) minDist mult = some .empty := by
  have hin : inGrid g.dims (g.indexOf (point4 p)) = true := by
    by_contra hn
    rw [Bool.not_eq_true] at hn
    rw [estimate_out _ _ hn] at hx
    cases hx
  unfold SDFGrid.project
  rw [if_pos hin]
  simp only [hx]
  unfold SDFGrid.projectLoop
  rw [if_pos hle]
  dsimp only
  obtain ⟨w, hw⟩ := (C17_availability h.pos (g.indexOf (point4 p)) true).1 ⟨inGrid_axis.1 hin, Or.inl rfl⟩
  unfold SDFGrid.coarseAt
  rw [if_pos hin, hw]
  dsimp only
  rw [if_neg]
  have := generated_length h hw
  have := sqrt12_lt
  linarith

/-- C62, negative part: with a resolution of at least 58, every cell of a generated field is its own local extremum. -/
theorem C62_large_numbers_all_extrema (h : Generated filled border g) (hs : 58 ≤ g.s) {fuel : ℕ}
    (hfuel : g.dims.nx * (g.dims.ny * g.dims.nz) ≤ fuel) :
    ∃ m, g.extrema fuel = some m ∧ ∀ c, CellInGrid (axisCells g.dims) c → m c = some (.at (cellCentre g.s c)) := by
  obtain ⟨flat, next, hfl, m, hm, hmc⟩ := C20_extrema_map_complete h.pos hfuel
  refine ⟨m, hm, fun c hc => ?_⟩
  have hflat : ∀ c, CellInGrid (axisCells g.dims) c → flat c := by
    intro c hc
    obtain ⟨v, hv, hf, _⟩ := hfl c hc
    rw [hf]
    intro a
    have h1 := generated_length h hv
    have h2 := sqrt12_lt
    have h3 : |v a| ≤ length3 v := by
      unfold length3
      apply Real.abs_le_sqrt
      fin_cases a
      · show v 0 ^ 2 ≤ _; linarith [sq_nonneg (v 1), sq_nonneg (v 2)]
      · show v 1 ^ 2 ≤ _; linarith [sq_nonneg (v 0), sq_nonneg (v 2)]
      · show v 2 ^ 2 ≤ _; linarith [sq_nonneg (v 0), sq_nonneg (v 1)]
    linarith
  have hstay : ∀ e, LeadsTo (CellInGrid (axisCells g.dims)) flat next c e → e = c := by
    intro e he
    rcases Relation.ReflTransGen.cases_head he with rfl | ⟨b, hb, _⟩
    · rfl
    · exact absurd (hflat c hc) hb.2.1
  rcases hmc c hc with ⟨_, b, hb, hout⟩ | ⟨e, he, hE⟩
  · rw [hstay b hb] at hout
    exact absurd hc hout
  · rw [he, hstay e hE.1]

end
/-! ### Concrete cases -/

/-- The wall of the projection examples, in a unit half as long. -/
def exWallSDF2 : SDFGrid ℚ := ⟨⟨4, 1, 1⟩, 2, idPose, fun i => 2 * exWallSDF.data i⟩

theorem exWallSDF2_unit : InUnit 2 exWallSDF exWallSDF2 := by
  refine ⟨rfl, by decide +kernel, rfl, by decide +kernel, fun _ _ => rfl⟩

theorem exWallSDF_slopes {i : IVec} {v : Vec ℚ} (h : exWallSDF.coarse i true = some (some v)) :
    v = ![1, 0, 0] ∨ v = ![3 / 2, 0, 0] := by
  have hav : CellInGrid (axisCells exWallSDF.dims) i := by
    by_contra hn
    rw [(C17_availability (g := exWallSDF) (by decide +kernel) i true).2 (fun hx => hn hx.1)] at h
    simp at h
  have h0 := hav 0
  have h1 := hav 1
  have h2 := hav 2
  simp [exWallSDF, axisCells] at h0 h1 h2
  have hc : (i 0 = 0 ∨ i 0 = 1 ∨ i 0 = 2 ∨ i 0 = 3) := by omega
  have hi3 : i = ![i 0, 0, 0] := by
    funext a; fin_cases a
    · rfl
    · show i 1 = 0; omega
    · show i 2 = 0; omega
  rw [hi3] at h
  have e0 : exWallSDF.coarse ![0, 0, 0] true = some (some ![1, 0, 0]) := by decide +kernel
  have e1 : exWallSDF.coarse ![1, 0, 0] true = some (some ![3 / 2, 0, 0]) := by decide +kernel
  have e2 : exWallSDF.coarse ![2, 0, 0] true = some (some ![3 / 2, 0, 0]) := by decide +kernel
  have e3 : exWallSDF.coarse ![3, 0, 0] true = some (some ![1, 0, 0]) := by decide +kernel
  rcases hc with hk | hk | hk | hk <;> rw [hk] at h
  · rw [e0] at h; exact Or.inl (Option.some.inj (Option.some.inj h)).symm
  · rw [e1] at h; exact Or.inr (Option.some.inj (Option.some.inj h)).symm
  · rw [e2] at h; exact Or.inr (Option.some.inj (Option.some.inj h)).symm
  · rw [e3] at h; exact Or.inl (Option.some.inj (Option.some.inj h)).symm

/-- Both partial theorems apply to it: its gradients are 1 and 3/2 along x, on the same side of all four thresholds. -/
example : (∀ i v, exWallSDF.coarse i true = some (some v) →
      (axisNorm v > exWallSDF.s * (1 / 4) ↔ axisNorm v > 2 * exWallSDF.s * (1 / 4))) ∧
    (∀ i v, exWallSDF.coarse i true = some (some v) → ∀ a,
      (|v a| ≤ exWallSDF.s * (6125 / 100000) ↔ |v a| ≤ 2 * exWallSDF.s * (6125 / 100000))) ∧
    (exWallSDF2.project axisNorm 10 (point4 (inUnit 2 ![17 / 10, 1 / 2, 1 / 2])) (2 * 0) (1 / 10)).bind Projection.position? =
      some ![20001 / 5000, 1, 1] := by
  refine ⟨?_, ?_, by decide +kernel⟩
  · intro i v h
    rcases exWallSDF_slopes h with rfl | rfl <;> decide +kernel
  · intro i v h
    rcases exWallSDF_slopes h with rfl | rfl <;> decide +kernel

/-- The same point and window in both units. -/
example : exWallSDF.estimate (point4 ![17 / 10, 1 / 2, 1 / 2]) = some (some (-(3 / 10))) ∧
    exWallSDF2.estimate (point4 (inUnit 2 ![17 / 10, 1 / 2, 1 / 2])) = some (some (-(3 / 5))) ∧
    exWallSDF.fine ![17 / 10, 1 / 2, 1 / 2] (1 / 10) = .value ![1, 0, 0] ∧
    exWallSDF2.fine (inUnit 2 ![17 / 10, 1 / 2, 1 / 2]) (2 * (1 / 10)) = .value ![1, 0, 0] := by
  decide +kernel

end VGT
