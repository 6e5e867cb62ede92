import Verif.Props.Gradient
import Verif.Spec.Extrema
import Mathlib.Data.List.Perm.Subperm
import Mathlib.Data.List.Range

/-!
C20 (the local extrema map is complete and terminates) and C54 (it does not depend on the pose of the grid: false).
-/
set_option autoImplicit false

namespace VGT
open VGT.EDT VGT.Spec

section
variable {K : Type} [Field K] [LinearOrder K] [IsStrictOrderedRing K] [FloorRing K]

/-- A cell of the grid. -/
def InD (d : Dims) (i : IVec) : Prop := CellInGrid (axisCells d) i

theorem inD_iff {d : Dims} {i : IVec} : inGrid d i = true ↔ InD d i := inGrid_axis

theorem mem_sweepOrder {d : Dims} {i : IVec} : i ∈ sweepOrder d ↔ InD d i := by
  unfold sweepOrder
  simp only [List.mem_flatMap, List.mem_range, List.mem_map]
  constructor
  · rintro ⟨x, hx, y, hy, z, hz, rfl⟩
    intro a; fin_cases a
    · exact ⟨Int.natCast_nonneg _, Int.ofNat_lt.2 hx⟩
    · exact ⟨Int.natCast_nonneg _, Int.ofNat_lt.2 hy⟩
    · exact ⟨Int.natCast_nonneg _, Int.ofNat_lt.2 hz⟩
  · intro h
    have h0 := h 0
    have h1 := h 1
    have h2 := h 2
    simp only [axisCells, Matrix.cons_val_zero, Matrix.cons_val_one, Matrix.cons_val] at h0 h1 h2
    refine ⟨(i 0).toNat, by omega, (i 1).toNat, by omega, (i 2).toNat, by omega, ?_⟩
    funext a; fin_cases a
    · exact Int.toNat_of_nonneg h0.1
    · exact Int.toNat_of_nonneg h1.1
    · exact Int.toNat_of_nonneg h2.1

theorem length_sweepOrder (d : Dims) : (sweepOrder d).length = d.nx * (d.ny * d.nz) := by
  unfold sweepOrder
  simp [List.length_flatMap]

/-- What a stored value must mean for a cell. -/
def GoodExt (d : Dims) (s : K) (flat : IVec → Bool) (next : IVec → IVec) (c : IVec) : Ext K → Prop
  | .off => RunsOff (InD d) (fun i => flat i = true) next c
  | .at p => ∃ e, p = cellCentre s e ∧ EndsAt (InD d) (fun i => flat i = true) next c e

theorem centre_eq (s : K) (i : IVec) : centre s i = cellCentre s i := by
  funext a; unfold centre cellCentre; ring

theorem GoodExt.lead {d : Dims} {s : K} {flat : IVec → Bool} {next : IVec → IVec} {c c' : IVec} {e : Ext K}
    (h : LeadsTo (InD d) (fun i => flat i = true) next c c') (he : GoodExt d s flat next c' e) : GoodExt d s flat next c e := by
  cases e with
  | off =>
    obtain ⟨b, hb, ho⟩ := he
    exact ⟨b, h.trans hb, ho⟩
  | «at» p =>
    obtain ⟨e, hp, h1, h2, h3⟩ := he
    exact ⟨e, hp, h.trans h1, h2, h3⟩

theorem followLoop_spec {d : Dims} {s : K} {flat : IVec → Bool} {next : IVec → IVec} {m : ExtMap K}
    (hm : ∀ c e, m c = some e → GoodExt d s flat next c e) (fuel : ℕ) (cur : IVec) (path : List IVec)
    (hfuel : d.nx * (d.ny * d.nz) + 1 ≤ fuel + path.length) (hnd : path.Nodup) (hcur : cur ∈ path)
    (hpath : ∀ c ∈ path, InD d c ∧ flat c = false ∧ LeadsTo (InD d) (fun i => flat i = true) next c cur) :
    ∃ e keys, followLoop d s flat next m fuel cur path = some (e, keys) ∧ path ⊆ keys ∧
      ∀ c ∈ keys, InD d c → GoodExt d s flat next c e := by
  induction fuel generalizing cur path with
  | zero =>
    exfalso
    have hle : path.length ≤ (sweepOrder d).length :=
      (List.subperm_of_subset hnd fun c hc => mem_sweepOrder.2 (hpath c hc).1).length_le
    rw [length_sweepOrder] at hle
    omega
  | succ fuel ih =>
    obtain ⟨hci, hcf, _⟩ := hpath cur hcur
    have hstep : StepTo (InD d) (fun i => flat i = true) next cur (next cur) := ⟨hci, by simp [hcf], rfl⟩
    have hlead : ∀ c ∈ path, LeadsTo (InD d) (fun i => flat i = true) next c (next cur) :=
      fun c hc => (hpath c hc).2.2.tail hstep
    unfold followLoop
    dsimp only
    by_cases h1 : next cur ∈ path
    · rw [if_pos h1]
      refine ⟨_, _, rfl, List.Subset.refl _, ?_⟩
      intro c hc _
      refine ⟨next cur, centre_eq _ _, hlead c hc, (hpath _ h1).1, Or.inr ?_⟩
      exact Relation.TransGen.tail' (hpath _ h1).2.2 hstep
    · rw [if_neg h1]
      by_cases h2 : inGrid d (next cur) = false
      · rw [if_pos h2]
        refine ⟨_, _, rfl, fun c hc => List.mem_cons_of_mem _ hc, ?_⟩
        intro c hc hin
        have hno : ¬ InD d (next cur) := by rw [← inD_iff, h2]; simp
        rcases List.mem_cons.1 hc with rfl | hc
        · exact absurd hin hno
        · exact ⟨next cur, hlead c hc, hno⟩
      · rw [if_neg h2]
        have hin : InD d (next cur) := inD_iff.1 (by simpa using h2)
        cases hmc : m (next cur) with
        | some e =>
          refine ⟨_, _, rfl, fun c hc => List.mem_cons_of_mem _ hc, ?_⟩
          intro c hc _
          rcases List.mem_cons.1 hc with rfl | hc
          · exact hm _ _ hmc
          · exact (hm _ _ hmc).lead (hlead c hc)
        | none =>
          dsimp only
          by_cases h3 : flat (next cur) = true
          · rw [if_pos h3]
            refine ⟨_, _, rfl, fun c hc => List.mem_cons_of_mem _ hc, ?_⟩
            intro c hc _
            have hl : LeadsTo (InD d) (fun i => flat i = true) next c (next cur) := by
              rcases List.mem_cons.1 hc with rfl | hc
              · exact Relation.ReflTransGen.refl
              · exact hlead c hc
            exact ⟨next cur, centre_eq _ _, hl, hin, Or.inl h3⟩
          · rw [if_neg h3]
            obtain ⟨e, keys, h4, h5, h6⟩ := ih (next cur) (next cur :: path) (by simp; omega)
              (List.nodup_cons.2 ⟨h1, hnd⟩) List.mem_cons_self (by
                intro c hc
                rcases List.mem_cons.1 hc with rfl | hc
                · exact ⟨hin, by simpa using h3, Relation.ReflTransGen.refl⟩
                · exact ⟨(hpath c hc).1, (hpath c hc).2.1, hlead c hc⟩)
            exact ⟨e, keys, h4, fun c hc => h5 (List.mem_cons_of_mem _ hc), h6⟩

/-- Writing one value to a list of cells. -/
theorem foldl_set (d : Dims) (e : Ext K) (keys : List IVec) (m : ExtMap K) (c : IVec) :
    keys.foldl (fun m j => m.set d j e) m c = if c ∈ keys ∧ inGrid d c = true then some e else m c := by
  induction keys generalizing m with
  | nil => simp
  | cons k ks ih =>
    rw [List.foldl_cons, ih]
    unfold ExtMap.set
    by_cases hk : c = k
    · subst hk
      by_cases hg : inGrid d c = true
      · simp [hg]
      · simp [hg]
    · by_cases hg : inGrid d k = true
      · simp [hg, hk]
      · simp [hg, hk]

/-- One cell of the sweep. -/
theorem followExtrema_spec {d : Dims} {s : K} {flat : IVec → Bool} {next : IVec → IVec} {m : ExtMap K}
    (hm : ∀ c e, m c = some e → InD d c ∧ GoodExt d s flat next c e) {fuel : ℕ} (hfuel : d.nx * (d.ny * d.nz) ≤ fuel) {i : IVec}
    (hi : InD d i) :
    ∃ m', followExtrema d s flat next fuel m i = some m' ∧ (∀ c e, m' c = some e → InD d c ∧ GoodExt d s flat next c e) ∧
      (∃ e, m' i = some e) ∧ ∀ c e, m c = some e → ∃ e', m' c = some e' := by
  unfold followExtrema
  cases hmi : m i with
  | some e => exact ⟨m, rfl, hm, ⟨e, hmi⟩, fun c e h => ⟨e, h⟩⟩
  | none =>
    dsimp only
    by_cases hf : flat i = true
    · rw [if_pos hf]
      refine ⟨_, rfl, ?_, ?_, ?_⟩
      · intro c e h
        unfold ExtMap.set at h
        rw [if_pos (inD_iff.2 hi)] at h
        by_cases hc : c = i
        · subst hc
          simp only [if_true] at h
          cases h
          exact ⟨hi, c, centre_eq _ _, Relation.ReflTransGen.refl, hi, Or.inl hf⟩
        · simp only [if_neg hc] at h
          exact hm c e h
      · refine ⟨.at (centre s i), ?_⟩
        unfold ExtMap.set
        simp [inD_iff.2 hi]
      · intro c e h
        unfold ExtMap.set
        rw [if_pos (inD_iff.2 hi)]
        by_cases hc : c = i
        · subst hc; exact ⟨_, if_pos rfl⟩
        · exact ⟨e, by simp only [if_neg hc]; exact h⟩
    · rw [if_neg hf]
      obtain ⟨e, keys, h1, h2, h3⟩ := followLoop_spec (fun c e h => (hm c e h).2) fuel i [i] (by simp; omega)
        (List.nodup_singleton i) (List.mem_singleton.2 rfl) (by
          intro c hc
          rw [List.mem_singleton.1 hc]
          exact ⟨hi, by simpa using hf, Relation.ReflTransGen.refl⟩)
      rw [h1]
      refine ⟨_, rfl, ?_, ?_, ?_⟩
      · intro c e' h
        dsimp only at h
        rw [foldl_set] at h
        split_ifs at h with hc
        · cases h
          exact ⟨inD_iff.1 hc.2, h3 c hc.1 (inD_iff.1 hc.2)⟩
        · exact hm c e' h
      · refine ⟨e, ?_⟩
        dsimp only
        rw [foldl_set, if_pos ⟨h2 (List.mem_singleton.2 rfl), inD_iff.2 hi⟩]
      · intro c e' h
        dsimp only
        rw [foldl_set]
        split_ifs
        · exact ⟨_, rfl⟩
        · exact ⟨_, h⟩

theorem sweep_spec {d : Dims} {s : K} {flat : IVec → Bool} {next : IVec → IVec} {fuel : ℕ}
    (hfuel : d.nx * (d.ny * d.nz) ≤ fuel) (l : List IVec) (hl : ∀ i ∈ l, InD d i) {m : ExtMap K}
    (hm : ∀ c e, m c = some e → InD d c ∧ GoodExt d s flat next c e) :
    ∃ m', l.foldl (fun m i => m.bind fun m => followExtrema d s flat next fuel m i) (some m) = some m' ∧
      (∀ c e, m' c = some e → InD d c ∧ GoodExt d s flat next c e) ∧
      (∀ i ∈ l, ∃ e, m' i = some e) ∧ ∀ c e, m c = some e → ∃ e', m' c = some e' := by
  induction l generalizing m with
  | nil => exact ⟨m, rfl, hm, by simp, fun c e h => ⟨e, h⟩⟩
  | cons i l ih =>
    obtain ⟨m1, h1, h2, ⟨e, h3⟩, h4⟩ := followExtrema_spec hm hfuel (hl i List.mem_cons_self)
    obtain ⟨m2, g1, g2, g3, g4⟩ := ih (fun j hj => hl j (List.mem_cons_of_mem _ hj)) h2
    refine ⟨m2, ?_, g2, ?_, ?_⟩
    · rw [List.foldl_cons, Option.bind_some, h1]; exact g1
    · intro j hj
      rcases List.mem_cons.1 hj with rfl | hj
      · exact g4 _ _ h3
      · exact g3 j hj
    · intro c e h
      obtain ⟨e', he'⟩ := h4 c e h
      exact g4 c e' he'

/-- C20, for any flatness test and any step function (so also for NaN and infinite gradients, and for cyclic ones):
the computation ends, with at most as many steps per cell as there are cells; every cell of the grid gets a value
and the value is right: either plus infinity and the steps lead off the grid, or the centre of a cell of the grid that
the steps lead to and that is flat or visited again and again. -/
theorem C20_map_complete_any_steps (d : Dims) (s : K) (flat : IVec → Bool) (next : IVec → IVec) {fuel : ℕ}
    (hfuel : d.nx * (d.ny * d.nz) ≤ fuel) :
    ∃ m, extremaMap d s flat next fuel = some m ∧ (∀ c, ¬ CellInGrid (axisCells d) c → m c = none) ∧
      ∀ c, CellInGrid (axisCells d) c →
        (m c = some .off ∧ RunsOff (CellInGrid (axisCells d)) (fun i => flat i = true) next c) ∨
        (∃ e, m c = some (.at (cellCentre s e)) ∧ EndsAt (CellInGrid (axisCells d)) (fun i => flat i = true) next c e) := by
  obtain ⟨m, h1, h2, h3, _⟩ := sweep_spec (s := s) (flat := flat) (next := next) hfuel (sweepOrder d) (fun i hi => mem_sweepOrder.1 hi)
    (m := fun _ => none) (by simp)
  refine ⟨m, h1, ?_, ?_⟩
  · intro c hc
    cases hmc : m c with
    | none => rfl
    | some e => exact absurd (h2 c e hmc).1 hc
  · intro c hc
    obtain ⟨e, he⟩ := h3 c (mem_sweepOrder.2 hc)
    have hg := (h2 c e he).2
    cases e with
    | off => exact Or.inl ⟨he, hg⟩
    | «at» p =>
      obtain ⟨e, rfl, hE⟩ := hg
      exact Or.inr ⟨e, he, hE⟩

/-- A gradient with all components within the threshold. -/
def Spec.NoSlope (th : K) (v : Fin 3 → K) : Prop := ∀ a, |v a| ≤ th

/-- The neighbour cell in the direction of `v`, axis by axis: a component above the threshold moves one cell up, one
below minus the threshold moves one cell down. -/
def Spec.IsNeighbourAlong (th : K) (v : Fin 3 → K) (c c' : Fin 3 → ℤ) : Prop :=
  ∀ a, (th < v a → c' a = c a + 1) ∧ (v a < -th → c' a = c a - 1) ∧ (|v a| ≤ th → c' a = c a)

theorem flatAt_iff {g : SDFGrid K} (hs : 0 < g.s) {c : IVec} (hc : CellInGrid (axisCells g.dims) c) :
    ∃ v, g.coarse c true = some (some v) ∧ (g.flatAt c = true ↔ NoSlope (g.s * (6125 / 100000)) v) ∧
      IsNeighbourAlong (g.s * (6125 / 100000)) (if storedAt g.data c < 0 then fun a => -v a else v) c (g.nextAt c) := by
  obtain ⟨v, hv⟩ := (C17_availability hs c true).1 ⟨hc, Or.inl rfl⟩
  refine ⟨v, hv, ?_, ?_⟩
  · unfold SDFGrid.flatAt effectivelyFlat NoSlope
    rw [hv]
    simp only [decide_eq_true_eq]
    constructor
    · rintro ⟨h0, h1, h2⟩ a
      fin_cases a
      · exact h0
      · exact h1
      · exact h2
    · intro h; exact ⟨h 0, h 1, h 2⟩
  · unfold SDFGrid.nextAt
    rw [hv, get_inGrid g (inGrid_axis.2 hc)]
    have hpos : 0 < g.s * (6125 / 100000) := by positivity
    intro a
    have e : g.data ((c 0).toNat, (c 1).toNat, (c 2).toNat) = storedAt g.data c := rfl
    simp only [nextFromGradient, e]
    have hw : (if storedAt g.data c < 0 then v a * -1 else v a) = (if storedAt g.data c < 0 then fun a => -v a else v) a := by
      split_ifs <;> simp
    rw [hw]
    generalize (if storedAt g.data c < 0 then fun a => -v a else v) a = x
    generalize g.s * (6125 / 100000) = th at *
    refine ⟨fun h => ?_, fun h => ?_, fun h => ?_⟩
    · rw [if_pos h]
    · rw [if_neg (by linarith), if_pos h]
    · rw [abs_le] at h
      rw [if_neg (by linarith [h.2]), if_neg (by linarith [h.1])]

/-- C20. `ComputeLocalExtremaMap` on every signed distance field: it ends, every cell gets a value, and the value is
where following the (thresholded) coarse gradients away from obstacles leads. -/
theorem C20_extrema_map_complete {g : SDFGrid K} (hs : 0 < g.s) {fuel : ℕ}
    (hfuel : g.dims.nx * (g.dims.ny * g.dims.nz) ≤ fuel) :
    ∃ (flat : IVec → Prop) (next : IVec → IVec),
      (∀ c, CellInGrid (axisCells g.dims) c → ∃ v, g.coarse c true = some (some v) ∧
        (flat c ↔ NoSlope (g.s * (6125 / 100000)) v) ∧
        IsNeighbourAlong (g.s * (6125 / 100000)) (if storedAt g.data c < 0 then fun a => -v a else v) c (next c)) ∧
      ∃ m, g.extrema fuel = some m ∧ ∀ c, CellInGrid (axisCells g.dims) c →
        (m c = some .off ∧ RunsOff (CellInGrid (axisCells g.dims)) flat next c) ∨
        (∃ e, m c = some (.at (cellCentre g.s e)) ∧ EndsAt (CellInGrid (axisCells g.dims)) flat next c e) := by
  refine ⟨fun i => g.flatAt i = true, g.nextAt, fun c hc => flatAt_iff hs hc, ?_⟩
  obtain ⟨m, h1, _, h3⟩ := C20_map_complete_any_steps g.dims g.s g.flatAt g.nextAt hfuel
  exact ⟨m, h1, h3⟩

/-- C54, partial: moving the grid without turning it changes nothing. Missing: turning it (false, see
`C54_extrema_depend_on_pose`). -/
theorem C54_translation_invariant_partial (g : SDFGrid K) (t : Vec K) (fuel : ℕ) :
    ({ g with pose := { g.pose with t := t } } : SDFGrid K).extrema fuel = g.extrema fuel := by
  have hc : ∀ i, ({ g with pose := { g.pose with t := t } } : SDFGrid K).coarse i true = g.coarse i true := by
    intro i
    have hg : ({ g with pose := { g.pose with t := t } } : SDFGrid K).coarseGrid i true = g.coarseGrid i true := rfl
    unfold SDFGrid.coarse
    rw [hg]
    cases g.coarseGrid i true with
    | none => rfl
    | some r => cases r <;> simp [Pose.apply]
  unfold SDFGrid.extrema
  congr 1
  · funext i; unfold SDFGrid.flatAt; rw [hc]
  · funext i; unfold SDFGrid.nextAt; rw [hc]; rfl

end

/-! ### Concrete cases -/

/-- The stored location, if any. -/
def Ext.loc? {K : Type} : Ext K → Option (Vec K)
  | .off => none
  | .at p => some p

/-- What the map of a field holds for a cell: `none` if still unset, `some none` off the grid, else a location. -/
def SDFGrid.extremumOf (g : SDFGrid ℚ) (c : IVec) : Option (Option (Vec ℚ)) :=
  (g.extrema (g.dims.nx * (g.dims.ny * g.dims.nz))).bind fun m => (m c).map Ext.loc?

/-- A 4×2×1 field rising along x to a plateau. -/
def exPlateau (P : Pose ℚ) : SDFGrid ℚ := ⟨⟨4, 2, 1⟩, 1, P, fun i => if i.1 = 0 then 1 else 2⟩

/-- On the plateau field the first cell leads to the cell (2,0,0); on a field falling off towards the edge, off the
grid; on a field with two opposing slopes, to a cell of the two-cycle. -/
example : (exPlateau ⟨![![1, 0, 0], ![0, 1, 0], ![0, 0, 1]], ![0, 0, 0]⟩).extremumOf ![0, 0, 0] = some (some ![5 / 2, 1 / 2, 1 / 2]) ∧
    (SDFGrid.mk ⟨3, 1, 1⟩ 1 ⟨![![1, 0, 0], ![0, 1, 0], ![0, 0, 1]], ![0, 0, 0]⟩ fun i => (i.1 : ℚ)).extremumOf ![0, 0, 0] = some none ∧
    (SDFGrid.mk ⟨4, 1, 1⟩ 1 ⟨![![1, 0, 0], ![0, 1, 0], ![0, 0, 1]], ![0, 0, 0]⟩
      fun i => if i.1 = 1 ∨ i.1 = 2 then 2 else 1).extremumOf ![0, 0, 0] = some (some ![3 / 2, 1 / 2, 1 / 2]) := by
  decide +kernel

/-- C54, negative part: the map is computed in grid frame but follows world-frame gradients, so turning the grid by 90
degrees (same cells, same distances) changes where a cell leads: to the plateau in one pose, off the grid in the other. -/
theorem C54_extrema_depend_on_pose :
    ∃ (P P' : Pose ℚ) (c : IVec), Orthogonal P.R ∧ Orthogonal P'.R ∧ CellInGrid (axisCells (exPlateau P).dims) c ∧
      (exPlateau P).extremumOf c = some (some (cellCentre 1 ![2, 0, 0])) ∧ (exPlateau P').extremumOf c = some none := by
  refine ⟨⟨![![1, 0, 0], ![0, 1, 0], ![0, 0, 1]], ![0, 0, 0]⟩, ⟨![![0, -1, 0], ![1, 0, 0], ![0, 0, 1]], ![0, 0, 0]⟩,
    ![0, 0, 0], ?_⟩
  unfold Orthogonal CellInGrid
  decide +kernel

end VGT
