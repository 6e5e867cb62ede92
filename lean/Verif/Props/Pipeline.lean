import Verif.Props.PointKept
import Verif.Props.Machine
import Verif.Props.MapSDF

/-!
C77: from measured points through the voxelized map and its signed distance field to the answer of a query.
-/
set_option autoImplicit false

namespace VGT
open VGT.EDT VGT.Spec VGT.Par

/-! ### The map and its field -/

theorem field_generated {K : Type} {ro : Rounding} {p : GenParams} {m : VoxMap K} {s : ℝ} {F : SDFGrid ℝ} (h : FieldOf ro p m s F) :
    GeneratedBy ro (fun i => occFilled p ((m.cells s).data i)) p.addBorder F := by
  obtain ⟨out, h1, h2⟩ := h.run
  exact ⟨h.pose, (m.cells s).info, isFilledPlain id (m.cells s) p, p.oob, out, h.ok, h.dims.symm, h.edge.symm,
    fun i hi => isFilledPlain_toZ id (m.cells s) p hi, h1, h2⟩

theorem obstacle_of_above {b : Bool} {o : Fl} (h : AboveHalf o) : Obstacle b o := .inl h

theorem filled_of_above {K : Type} {p : GenParams} {m : VoxMap K} {s : ℝ} {i : Fin 3 → ℤ} (h : AboveHalf (m.data (dataIndex m.dims i))) :
    occFilled p ((m.cells s).data (cellIdx i)) = true := (occFilled_iff p _).2 (.inl h)

theorem above_of_filled {K : Type} {p : GenParams} (hp : p.unknownIsFilled = false) {m : VoxMap K} {s : ℝ} {i : Fin 3 → ℤ}
    (h : occFilled p ((m.cells s).data (cellIdx i)) = true) : AboveHalf (m.data (dataIndex m.dims i)) := by
  rcases (occFilled_iff p _).1 h with h | ⟨h, -⟩
  · exact h
  · rw [hp] at h; cases h

/-- The point of the cell next to a place. -/
theorem nearBox_clamp {tol s : ℚ} (htol : 0 ≤ tol) (hs : 0 ≤ s) {i : Fin 3 → ℤ} {y : Fin 3 → ℚ} (h : NearBox tol s i y) :
    ∃ x : Fin 3 → ℝ, InClosedCell (s : ℝ) i x ∧ dist3 x (fun a => (y a : ℝ)) ≤ 2 * tol := by
  refine ⟨fun a => ((max (i a * s) (min (y a) ((i a + 1) * s)) : ℚ) : ℝ), fun a => ?_, dist3_le_of_coords fun a => ?_⟩
  · have h1 : (i a : ℚ) * s ≤ max (i a * s) (min (y a) ((i a + 1) * s)) := le_max_left _ _
    have h2 : max (i a * s) (min (y a) ((i a + 1) * s)) ≤ ((i a : ℚ) + 1) * s :=
      max_le (by linarith) (min_le_right _ _)
    have h1' : ((i a * s : ℚ) : ℝ) ≤ _ := Rat.cast_le.2 h1
    have h2' : _ ≤ (((i a + 1) * s : ℚ) : ℝ) := Rat.cast_le.2 h2
    push_cast at h1' h2' ⊢
    exact ⟨h1', h2'⟩
  · obtain ⟨h1, h2⟩ := h a
    have : |max (i a * s) (min (y a) ((i a + 1) * s)) - y a| ≤ tol := by
      rcases le_total (y a) ((i a + 1) * s) with h3 | h3
      · rw [min_eq_left h3]
        rcases le_total (i a * s) (y a) with h4 | h4
        · rw [max_eq_right h4]; simpa using htol
        · rw [max_eq_left h4, abs_le]; constructor <;> linarith
      · rw [min_eq_right h3, max_eq_right (by linarith), abs_le]
        constructor <;> linarith
    exact_mod_cast this

/-- The place in the world. -/
theorem exists_inFrame (R : Fin 3 → Fin 3 → ℝ) (t q : Fin 3 → ℝ) : ∃ p, InFrame R t q p := ⟨_, fun _ => rfl⟩

/-- A bound for all points of filled cells holds for the kept points, up to the tolerance. -/
theorem kept_bound {K : Type} {p : GenParams} {m : VoxMap K} {s tol : ℚ} (htol : 0 ≤ tol) (hs : 0 ≤ s) {F : SDFGrid ℝ} (hR : Orthogonal F.pose.R)
    (hd : F.dims = m.dims) (hs1 : F.s = (s : ℝ)) {p' : Fin 3 → ℝ} {A : ℝ}
    (hA : ∀ o, CellInGrid (axisCells F.dims) o → occFilled p ((m.cells (s : ℝ)).data (cellIdx o)) = true → ∀ x y : Vec ℝ,
      InFrame F.pose.R F.pose.t x y → InClosedCell F.s o x → A ≤ dist3 p' y)
    {y : Fin 3 → ℚ} (hk : Kept tol s m y) {Y : Fin 3 → ℝ} (hY : InFrame F.pose.R F.pose.t (fun a => (y a : ℝ)) Y) :
    A - 2 * tol ≤ dist3 p' Y := by
  obtain ⟨i, hi, hnear, habove⟩ := hk
  obtain ⟨x, hx, hxy⟩ := nearBox_clamp htol hs hnear
  obtain ⟨X, hX⟩ := exists_inFrame F.pose.R F.pose.t x
  have h1 := hA i (by rw [hd]; exact hi) (filled_of_above habove) x X hX (by rw [hs1]; exact hx)
  have h2 := dist3_frame hR hX hY
  have h3 := dist3_triangle p' Y X
  rw [dist3_comm Y X, h2] at h3
  linarith

section
variable {norm : (Fin 3 → ℝ) → ℝ} {interp : (Fin 3 → ℝ) → (Fin 3 → ℝ) → (Bool → Bool → Bool → ℝ) → (Fin 3 → ℝ) → ℝ}
  {toGrid : Vec4 ℝ → Fin 3 → ℝ} {toWorld rotate : (Fin 3 → ℝ) → Fin 3 → ℝ} {K : Type} {gp : GenParams} {m : VoxMap K} {s tol N : ℚ} {F : SDFGrid ℝ}
  {loc : Vec4 ℝ} {e' : ℝ} {p p' : Fin 3 → ℝ}

/-- A query of the field of a map answers `e'` at a location `p'`; `p` is the place of its computed coordinates in the frame of the
grid.  `N` bounds the number of cells along an axis. -/
structure Answers (norm : (Fin 3 → ℝ) → ℝ) (interp : (Fin 3 → ℝ) → (Fin 3 → ℝ) → (Bool → Bool → Bool → ℝ) → (Fin 3 → ℝ) → ℝ)
    (toGrid : Vec4 ℝ → Fin 3 → ℝ) (toWorld rotate : (Fin 3 → ℝ) → Fin 3 → ℝ) (gp : GenParams) (m : VoxMap K) (s N : ℚ) (F : SDFGrid ℝ)
    (loc : Vec4 ℝ) (e' : ℝ) (p : Fin 3 → ℝ) : Prop where
  field : FieldOf floatSDF gp m (s : ℝ) F
  interp_double : DoubleInterpolation interp
  answer : flEstimate (roundedQuery roundDouble norm interp) (F.computed (roundDouble (1 / F.s)) toGrid toWorld rotate) loc = .value e'
  place : InFrame F.pose.R F.pose.t (toGrid loc) p
  s_ge : 1 / 2 ^ 100 ≤ s
  s_le : s ≤ 2 ^ 100
  N_ge : 1 ≤ N
  N_le : N ≤ 2 ^ 43
  cells : ∀ a, (axisCells m.dims a : ℚ) ≤ N

theorem Answers.s_bounds (h : Answers norm interp toGrid toWorld rotate gp m s N F loc e' p) :
    (2 : ℝ) ^ (-100 : ℤ) ≤ F.s ∧ F.s ≤ 2 ^ (100 : ℤ) ∧ (1 : ℝ) ≤ N ∧ (N : ℝ) ≤ 2 ^ 43 ∧ ∀ a, (axisCells F.dims a : ℝ) ≤ N := by
  rw [h.field.edge, h.field.dims]
  refine ⟨?_, ?_, ?_, ?_, fun a => ?_⟩
  · have h1 : ((1 / 2 ^ 100 : ℚ) : ℝ) ≤ s := Rat.cast_le.2 h.s_ge
    push_cast at h1
    rw [zpow_neg, ← one_div]
    exact_mod_cast h1
  · exact_mod_cast h.s_le
  · exact_mod_cast h.N_ge
  · exact_mod_cast h.N_le
  · exact_mod_cast h.cells a

/-- Kept points are at least as far from the location as the answer says, less a margin. -/
theorem Answers.clear (h : Answers norm interp toGrid toWorld rotate gp m s N F loc e' p) (htol : 0 ≤ tol) {y : Fin 3 → ℚ} (hk : Kept tol s m y)
    {Y : Fin 3 → ℝ} (hY : InFrame F.pose.R F.pose.t (fun a => (y a : ℝ)) Y) :
    e' - (Real.sqrt 3 + 3 + N / 2 ^ 18 + N ^ 2 / 2 ^ 37) * s - dist3 p p' - 2 * tol ≤ dist3 p' Y := by
  obtain ⟨b1, b2, b3, b4, b5⟩ := h.s_bounds
  have hs : 0 ≤ s := le_trans (by positivity) h.s_ge
  refine kept_bound htol hs h.field.pose h.field.dims h.field.edge (p := gp) (fun o ho hf x y hxy hx => ?_) hk hY
  rw [← h.field.edge]
  exact (C68_clear_ball_float (field_generated h.field) b1 b2 b3 b4 b5 h.interp_double h.answer h.place (p' := p') ho hxy hx).1 hf

/-- The same with a smaller margin away from the outer half of the outer cells. -/
theorem Answers.clear_inside (h : Answers norm interp toGrid toWorld rotate gp m s N F loc e' p) (htol : 0 ≤ tol) {y : Fin 3 → ℚ}
    (hmid : ∀ a, axisCells m.dims a = 1 ∨ ((s : ℝ) / 2 + 16 * (2 ^ (-53 : ℤ) * N) * s ≤ toGrid loc a ∧
      toGrid loc a ≤ ((axisCells m.dims a : ℝ) - 1 / 2) * s - 16 * (2 ^ (-53 : ℤ) * N) * s)) (hk : Kept tol s m y)
    {Y : Fin 3 → ℝ} (hY : InFrame F.pose.R F.pose.t (fun a => (y a : ℝ)) Y) :
    e' - (Real.sqrt 3 - 1 / 2 + N / 2 ^ 18 + N ^ 2 / 2 ^ 37) * s - dist3 p p' - 2 * tol ≤ dist3 p' Y := by
  obtain ⟨b1, b2, b3, b4, b5⟩ := h.s_bounds
  have hs : 0 ≤ s := le_trans (by positivity) h.s_ge
  refine kept_bound htol hs h.field.pose h.field.dims h.field.edge (p := gp) (fun o ho hf x y hxy hx => ?_) hk hY
  rw [← h.field.edge]
  refine (C68_clear_ball_inside_float (field_generated h.field) b1 b2 b3 b4 b5 h.interp_double h.answer h.place (p' := p') ?_ ho hxy hx).1 hf
  rw [h.field.edge, h.field.dims]
  exact hmid

end

/-! ### The answer is not too small -/

section
variable {filled : Idx → Bool} {g : SDFGrid ℝ} {N : ℝ} {norm : (Fin 3 → ℝ) → ℝ}
  {interp : (Fin 3 → ℝ) → (Fin 3 → ℝ) → (Bool → Bool → Bool → ℝ) → (Fin 3 → ℝ) → ℝ}
  {toGrid : Vec4 ℝ → Fin 3 → ℝ} {toWorld rotate : (Fin 3 → ℝ) → Fin 3 → ℝ}

/-- C68. The answer is not too small: at a location that is not in the outer half of an outer cell and has only free cells around it, the
computed estimate `e'` (field without virtual border) implies a filled cell whose centre is within `e'` plus `1/2 + √3/2 + N/2¹⁸ + N²/2³⁷`
cell edges of the location. -/
theorem C68_obstacle_near_float (hg : GeneratedBy floatSDF filled false g) (hs : (2 : ℝ) ^ (-100 : ℤ) ≤ g.s) (hs' : g.s ≤ 2 ^ (100 : ℤ))
    (h1 : 1 ≤ N) (hN43 : N ≤ 2 ^ 43) (hN : ∀ a, (axisCells g.dims a : ℝ) ≤ N) (hint : DoubleInterpolation interp)
    {loc : Vec4 ℝ} {e' : ℝ} (he' : flEstimate (roundedQuery roundDouble norm interp)
      (g.computed (roundDouble (1 / g.s)) toGrid toWorld rotate) loc = .value e')
    (hmid : ∀ a, axisCells g.dims a = 1 ∨ (g.s / 2 + 16 * (2 ^ (-53 : ℤ) * N) * g.s ≤ toGrid loc a ∧
      toGrid loc a ≤ ((axisCells g.dims a : ℝ) - 1 / 2) * g.s - 16 * (2 ^ (-53 : ℤ) * N) * g.s))
    (hfree : ∀ c, CellInGrid (axisCells g.dims) c → (∀ a, |cellCentre g.s c a - toGrid loc a| ≤ 17 / 16 * g.s) → filled (cellIdx c) = false) :
    ∃ o, CellInGrid (axisCells g.dims) o ∧ filled (cellIdx o) = true ∧
      dist3 (toGrid loc) (cellCentre g.s o) ≤ e' + (1 / 2 + Real.sqrt 3 / 2 + N / 2 ^ 18 + N ^ 2 / 2 ^ 37) * g.s := by
  have hsb : (2 : ℝ) ^ (-1022 : ℤ) ≤ g.s := le_trans (zpow_le_zpow_right₀ (by norm_num) (by norm_num)) hs
  have hsb' : g.s ≤ (2 : ℝ) ^ (1022 : ℤ) := hs'.trans (zpow_le_zpow_right₀ (by norm_num) (by norm_num))
  have hp : Precise (roundDouble : ℝ → ℝ) (2 ^ (-53 : ℤ)) (2 ^ (-1075 : ℤ)) g.s N := precise_double hsb h1 hN43
  have hspos := hp.s0
  obtain ⟨g₀, q', p₀, e, hg0, hd0, hs0, hP0, hbox, hq', hfr, he, hb⟩ := machine_estimate hg rfl (k := 24) (emin := -149) rfl rfl
    (by norm_num) (by norm_num) hs hp (hint.accurate hs hs' h1 hN43) (by have := hp.k0; linarith) hN (double_inverse hsb hsb') he'
  have hm := machine_margin (N := N) (v := 2 ^ (-((24 : ℕ) : ℤ))) (c := 1 / 2 ^ 18 - 1 / 2 ^ 22) hspos.le h1 (by norm_num)
  have e53 : (2 : ℝ) ^ (-53 : ℤ) = 1 / 2 ^ 53 := by rw [zpow_neg, one_div]; norm_cast
  have hsmall : 16 * (2 ^ (-53 : ℤ) * N) * g.s ≤ 1 / 16 * g.s := by
    refine mul_le_mul_of_nonneg_right ?_ hspos.le
    rw [e53]
    linarith
  have hshift := dist3_le_of_coords hq'
  have hNs : 0 < N * g.s := by positivity
  have hslack : 0 < 1 / 2 ^ 22 * (N * g.s) := by positivity
  by_contra hno
  push Not at hno
  have key := C58_not_pessimistic hg0 (q := q') (p := p₀) hfr ?_ he ?_
    (r := e' + (1 / 2 + Real.sqrt 3 / 2 + N / 2 ^ 18 + N ^ 2 / 2 ^ 37) * g.s - 32 * (2 ^ (-53 : ℤ) * N) * g.s) ?_
  · have hb' := abs_le.1 hb
    rw [hs0] at key
    have expand : (N * (1 / 2 ^ 18 - 1 / 2 ^ 22) + N ^ 2 / 2 ^ 37) * g.s = (N / 2 ^ 18 + N ^ 2 / 2 ^ 37) * g.s - 1 / 2 ^ 22 * (N * g.s) := by ring
    rw [expand] at hm
    have expand2 : (1 / 2 + Real.sqrt 3 / 2 + N / 2 ^ 18 + N ^ 2 / 2 ^ 37) * g.s =
      g.s / 2 + Real.sqrt 3 / 2 * g.s + (N / 2 ^ 18 + N ^ 2 / 2 ^ 37) * g.s := by ring
    rw [expand2] at key
    have := hb'.1
    have := hb'.2
    linarith
  · intro a
    rw [hd0, hs0]
    refine (hmid a).imp id fun h => ?_
    have h2 := abs_le.1 (hq' a)
    generalize 16 * (2 ^ (-53 : ℤ) * N) * g.s = ε at h h2
    obtain ⟨h3, h4⟩ := h
    constructor <;> linarith
  · intro c hc ha
    rw [hd0] at hc
    refine hfree c hc fun a => ?_
    have h2 := ha a
    rw [hs0] at h2
    have h3 := abs_sub_le (cellCentre g.s c a) (q' a) (toGrid loc a)
    have h4 := (hq' a).trans hsmall
    linarith
  · intro o ho hf
    rw [hd0] at ho
    rw [hs0]
    have h2 := hno o ho hf
    have h3 := dist3_triangle (toGrid loc) q' (cellCentre g.s o)
    rw [dist3_comm (toGrid loc) q'] at h3
    rw [e53] at hshift ⊢
    linarith

/-- C68. The same for `SignedDistanceField<double>`. -/
theorem C68_obstacle_near_double (hg : GeneratedBy doubleSDF filled false g) (hs : (2 : ℝ) ^ (-100 : ℤ) ≤ g.s) (hs' : g.s ≤ 2 ^ (100 : ℤ))
    (h1 : 1 ≤ N) (hN43 : N ≤ 2 ^ 43) (hN : ∀ a, (axisCells g.dims a : ℝ) ≤ N) (hint : DoubleInterpolation interp)
    {loc : Vec4 ℝ} {e' : ℝ} (he' : flEstimate (roundedQuery roundDouble norm interp)
      (g.computed (roundDouble (1 / g.s)) toGrid toWorld rotate) loc = .value e')
    (hmid : ∀ a, axisCells g.dims a = 1 ∨ (g.s / 2 + 16 * (2 ^ (-53 : ℤ) * N) * g.s ≤ toGrid loc a ∧
      toGrid loc a ≤ ((axisCells g.dims a : ℝ) - 1 / 2) * g.s - 16 * (2 ^ (-53 : ℤ) * N) * g.s))
    (hfree : ∀ c, CellInGrid (axisCells g.dims) c → (∀ a, |cellCentre g.s c a - toGrid loc a| ≤ 17 / 16 * g.s) → filled (cellIdx c) = false) :
    ∃ o, CellInGrid (axisCells g.dims) o ∧ filled (cellIdx o) = true ∧
      dist3 (toGrid loc) (cellCentre g.s o) ≤ e' + (1 / 2 + Real.sqrt 3 / 2 + N / 2 ^ 44 + N ^ 2 / 2 ^ 37) * g.s := by
  have hsb : (2 : ℝ) ^ (-1022 : ℤ) ≤ g.s := le_trans (zpow_le_zpow_right₀ (by norm_num) (by norm_num)) hs
  have hsb' : g.s ≤ (2 : ℝ) ^ (1022 : ℤ) := hs'.trans (zpow_le_zpow_right₀ (by norm_num) (by norm_num))
  have hp : Precise (roundDouble : ℝ → ℝ) (2 ^ (-53 : ℤ)) (2 ^ (-1075 : ℤ)) g.s N := precise_double hsb h1 hN43
  have hspos := hp.s0
  obtain ⟨g₀, q', p₀, e, hg0, hd0, hs0, hP0, hbox, hq', hfr, he, hb⟩ := machine_estimate hg rfl (k := 53) (emin := -1074) rfl rfl
    (by norm_num) (by norm_num) hs hp (hint.accurate hs hs' h1 hN43) (by have := hp.k0; linarith) hN (double_inverse hsb hsb') he'
  have hm := machine_margin (N := N) (v := 2 ^ (-((53 : ℕ) : ℤ))) (c := 1 / 2 ^ 44 - 1 / 2 ^ 47) hspos.le h1 (by norm_num)
  have e53 : (2 : ℝ) ^ (-53 : ℤ) = 1 / 2 ^ 53 := by rw [zpow_neg, one_div]; norm_cast
  have hsmall : 16 * (2 ^ (-53 : ℤ) * N) * g.s ≤ 1 / 16 * g.s := by
    refine mul_le_mul_of_nonneg_right ?_ hspos.le
    rw [e53]
    linarith
  have hshift := dist3_le_of_coords hq'
  have hNs : 0 < N * g.s := by positivity
  have hslack : 0 < 1 / 2 ^ 47 * (N * g.s) := by positivity
  by_contra hno
  push Not at hno
  have key := C58_not_pessimistic hg0 (q := q') (p := p₀) hfr ?_ he ?_
    (r := e' + (1 / 2 + Real.sqrt 3 / 2 + N / 2 ^ 44 + N ^ 2 / 2 ^ 37) * g.s - 32 * (2 ^ (-53 : ℤ) * N) * g.s) ?_
  · have hb' := abs_le.1 hb
    rw [hs0] at key
    have expand : (N * (1 / 2 ^ 44 - 1 / 2 ^ 47) + N ^ 2 / 2 ^ 37) * g.s = (N / 2 ^ 44 + N ^ 2 / 2 ^ 37) * g.s - 1 / 2 ^ 47 * (N * g.s) := by ring
    rw [expand] at hm
    have expand2 : (1 / 2 + Real.sqrt 3 / 2 + N / 2 ^ 44 + N ^ 2 / 2 ^ 37) * g.s =
      g.s / 2 + Real.sqrt 3 / 2 * g.s + (N / 2 ^ 44 + N ^ 2 / 2 ^ 37) * g.s := by ring
    rw [expand2] at key
    have := hb'.1
    have := hb'.2
    linarith
  · intro a
    rw [hd0, hs0]
    refine (hmid a).imp id fun h => ?_
    have h2 := abs_le.1 (hq' a)
    generalize 16 * (2 ^ (-53 : ℤ) * N) * g.s = ε at h h2
    obtain ⟨h3, h4⟩ := h
    constructor <;> linarith
  · intro c hc ha
    rw [hd0] at hc
    refine hfree c hc fun a => ?_
    have h2 := ha a
    rw [hs0] at h2
    have h3 := abs_sub_le (cellCentre g.s c a) (q' a) (toGrid loc a)
    have h4 := (hq' a).trans hsmall
    linarith
  · intro o ho hf
    rw [hd0] at ho
    rw [hs0]
    have h2 := hno o ho hf
    have h3 := dist3_triangle (toGrid loc) q' (cellCentre g.s o)
    rw [dist3_comm (toGrid loc) q'] at h3
    rw [e53] at hshift ⊢
    linarith

end

section
variable {norm : (Fin 3 → ℝ) → ℝ} {interp : (Fin 3 → ℝ) → (Fin 3 → ℝ) → (Bool → Bool → Bool → ℝ) → (Fin 3 → ℝ) → ℝ}
  {toGrid : Vec4 ℝ → Fin 3 → ℝ} {toWorld rotate : (Fin 3 → ℝ) → Fin 3 → ℝ} {K : Type} {gp : GenParams} {m : VoxMap K} {s tol N : ℚ} {F : SDFGrid ℝ}
  {loc : Vec4 ℝ} {e' : ℝ} {p p' : Fin 3 → ℝ}

/-- The location is not in the outer half of an outer cell, and the cells around it are not above one half. -/
structure OpenAround {K : Type} (m : VoxMap K) (s N : ℚ) (q : Fin 3 → ℝ) : Prop where
  mid : ∀ a, axisCells m.dims a = 1 ∨ ((s : ℝ) / 2 + 16 * (2 ^ (-53 : ℤ) * N) * s ≤ q a ∧
      q a ≤ ((axisCells m.dims a : ℝ) - 1 / 2) * s - 16 * (2 ^ (-53 : ℤ) * N) * s)
  free : ∀ i, CellInGrid (axisCells m.dims) i → (∀ a, |cellCentre (s : ℝ) i a - q a| ≤ 17 / 16 * s) → ¬ AboveHalf (m.data (dataIndex m.dims i))

/-- At a location in the open, a cell above one half is about as near as the answer says. -/
theorem Answers.found (h : Answers norm interp toGrid toWorld rotate gp m s N F loc e' p) (hu : gp.unknownIsFilled = false)
    (hb : gp.addBorder = false) (ho : OpenAround m s N (toGrid loc)) :
    ∃ i, CellInGrid (axisCells m.dims) i ∧ AboveHalf (m.data (dataIndex m.dims i)) ∧
      dist3 (toGrid loc) (cellCentre (s : ℝ) i) ≤ e' + (1 / 2 + Real.sqrt 3 / 2 + N / 2 ^ 18 + N ^ 2 / 2 ^ 37) * s := by
  obtain ⟨b1, b2, b3, b4, b5⟩ := h.s_bounds
  have hg := field_generated h.field
  rw [hb] at hg
  obtain ⟨o, h1, h2, h3⟩ := C68_obstacle_near_float hg b1 b2 b3 b4 b5 h.interp_double h.answer
    (by rw [h.field.edge, h.field.dims]; exact ho.mid) (fun c hc hca => by
      rw [h.field.edge] at hca
      rw [h.field.dims] at hc
      have := ho.free c hc hca
      by_contra hne
      exact this (above_of_filled hu (by simpa using hne)))
  rw [h.field.dims] at h1
  rw [h.field.edge] at h3
  exact ⟨o, h1, above_of_filled hu h2, h3⟩

/-- The distance to a place near a cell. -/
theorem near_cell_dist (hR : Orthogonal F.pose.R) {q : Fin 3 → ℝ} (hp : InFrame F.pose.R F.pose.t q p) {i : Fin 3 → ℤ} (htol : 0 ≤ tol) (hs : 0 < s)
    {y : Fin 3 → ℚ} (hn : NearBox tol s i y) {D : ℝ} (hD : dist3 q (cellCentre (s : ℝ) i) ≤ D) {Y : Fin 3 → ℝ}
    (hY : InFrame F.pose.R F.pose.t (fun a => (y a : ℝ)) Y) : dist3 p' Y ≤ D + Real.sqrt 3 / 2 * s + 2 * tol + dist3 p p' := by
  obtain ⟨x, hx, hxy⟩ := nearBox_clamp htol hs.le hn
  have hs' : (0 : ℝ) < s := by exact_mod_cast hs
  have h1 := dist3_in_cell hs' hx
  have h2 := dist3_triangle q (cellCentre (s : ℝ) i) (fun a => (y a : ℝ))
  have h3 := dist3_triangle (cellCentre (s : ℝ) i) x (fun a => (y a : ℝ))
  rw [dist3_comm (cellCentre (s : ℝ) i) x] at h3
  have h4 := dist3_frame hR hp hY
  have h5 := dist3_triangle p' p Y
  rw [dist3_comm p' p] at h5
  linarith

end

end VGT
