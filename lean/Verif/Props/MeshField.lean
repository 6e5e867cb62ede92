import Verif.Props.FineMesh
import Verif.Props.PipelineEx

/-!
C81: from a mesh through its occupancy map and the signed distance field of that map to the answer of a query.
-/
set_option autoImplicit false

namespace VGT
open VGT.EDT VGT.Spec

/-- Coordinates without rotation. -/
def unturned : Fin 3 → Fin 3 → ℝ := fun a b => if a = b then 1 else 0

theorem unturned_orthogonal : Orthogonal unturned := by
  constructor <;> intro a b <;> fin_cases a <;> fin_cases b <;> simp [unturned]

theorem unturned_frame {t q p : Fin 3 → ℝ} : InFrame unturned t q p ↔ ∀ a, p a = q a + t a := by
  constructor <;> intro h a <;> have := h a <;> fin_cases a <;> simpa [unturned] using this

section
variable {norm : (Fin 3 → ℝ) → ℝ} {interp : (Fin 3 → ℝ) → (Fin 3 → ℝ) → (Bool → Bool → Bool → ℝ) → (Fin 3 → ℝ) → ℝ}
  {toGrid : Vec4 ℝ → Fin 3 → ℝ} {toWorld rotate : (Fin 3 → ℝ) → Fin 3 → ℝ} {ro : Rounding} {σ : ℝ} {gp : GenParams} {dims : Dims} {s N D T : ℝ}
  {t : Fin 3 → ℝ} {occ : Idx → Fl} {F : SDFGrid ℝ} {loc : Vec4 ℝ} {e' : ℝ} {p p' : Fin 3 → ℝ} {vertices : List (Fin 3 → ℝ)}
  {triangles : List (ℤ × ℤ × ℤ)}

/-- The scalar type of a signed distance field, with the precision of its distances: `float` or `double`
(signed_distance_field.hpp:1268-1269). -/
def StoredAs (ro : Rounding) (σ : ℝ) : Prop := (ro = floatSDF ∧ σ = 2 ^ 18) ∨ (ro = doubleSDF ∧ σ = 2 ^ 44)

/-- `F` is the signed distance field extracted (occupancy_map.hpp:174-210) from a map with cells of edge `s`, its frame
translated by `t`; `ro` is the arithmetic of generation and storage. -/
structure FieldOfMap (ro : Rounding) (gp : GenParams) (d : Dims) (s : ℝ) (t : Fin 3 → ℝ) (occ : Idx → Fl) (F : SDFGrid ℝ) : Prop where
  ok : GenOK ro ⟨d, s, s, s⟩
  dims : F.dims = d
  edge : F.s = s
  pose : F.pose = ⟨unturned, t⟩
  run : ∃ out, ExtractPlain id ro ⟨⟨d, s, s, s⟩, occ⟩ gp (some out) ∧ ∀ i, d.In i → out i = .fin (F.data i)

/-- A query of the field answers `e'` at a location; `p` is the place of its computed coordinates in the frame of the grid. -/
structure FieldAnswers (norm : (Fin 3 → ℝ) → ℝ) (interp : (Fin 3 → ℝ) → (Fin 3 → ℝ) → (Bool → Bool → Bool → ℝ) → (Fin 3 → ℝ) → ℝ)
    (toGrid : Vec4 ℝ → Fin 3 → ℝ) (toWorld rotate : (Fin 3 → ℝ) → Fin 3 → ℝ) (t : Fin 3 → ℝ) (F : SDFGrid ℝ) (loc : Vec4 ℝ) (e' : ℝ)
    (p : Fin 3 → ℝ) : Prop where
  interp_double : DoubleInterpolation interp
  answer : flEstimate (roundedQuery roundDouble norm interp) (F.computed (roundDouble (1 / F.s)) toGrid toWorld rotate) loc = .value e'
  place : ∀ a, p a = toGrid loc a + t a

theorem FieldOfMap.generated (h : FieldOfMap ro gp dims s t occ F) : GeneratedBy ro (fun i => occFilled gp (occ i)) gp.addBorder F := by
  obtain ⟨out, h1, h2⟩ := h.run
  refine ⟨by rw [h.pose]; exact unturned_orthogonal, ⟨dims, s, s, s⟩, isFilledPlain id ⟨⟨dims, s, s, s⟩, occ⟩ gp, gp.oob, out, h.ok, h.dims.symm,
    h.edge.symm, fun i hi => isFilledPlain_toZ id ⟨⟨dims, s, s, s⟩, occ⟩ gp hi, h1, h2⟩

/-- The bounds of C68 for both scalar types. -/
theorem stored_clear_ball {filled : Idx → Bool} {border : Bool} (hro : StoredAs ro σ) (hg : GeneratedBy ro filled border F)
    (hs : (2 : ℝ) ^ (-100 : ℤ) ≤ F.s) (hs' : F.s ≤ 2 ^ (100 : ℤ)) (h1 : 1 ≤ N) (hN : N ≤ 2 ^ 43)
    (hcells : ∀ a, (axisCells F.dims a : ℝ) ≤ N) (hint : DoubleInterpolation interp) (he' : flEstimate (roundedQuery roundDouble norm interp)
      (F.computed (roundDouble (1 / F.s)) toGrid toWorld rotate) loc = .value e') (hfr : InFrame F.pose.R F.pose.t (toGrid loc) p)
    {o : Fin 3 → ℤ} (ho : CellInGrid (axisCells F.dims) o) {x y : Vec ℝ} (hxy : InFrame F.pose.R F.pose.t x y)
    (hx : InClosedCell F.s o x) :
    filled (cellIdx o) = true → e' - (Real.sqrt 3 + 3 + N / σ + N ^ 2 / 2 ^ 37) * F.s - dist3 p p' ≤ dist3 p' y := by
  rcases hro with ⟨rfl, rfl⟩ | ⟨rfl, rfl⟩
  · exact (C68_clear_ball_float hg hs hs' h1 hN hcells hint he' hfr (p' := p') ho hxy hx).1
  · exact (C68_clear_ball_double hg hs hs' h1 hN hcells hint he' hfr (p' := p') ho hxy hx).1

theorem stored_clear_ball_inside {filled : Idx → Bool} {border : Bool} (hro : StoredAs ro σ) (hg : GeneratedBy ro filled border F)
    (hs : (2 : ℝ) ^ (-100 : ℤ) ≤ F.s) (hs' : F.s ≤ 2 ^ (100 : ℤ)) (h1 : 1 ≤ N) (hN : N ≤ 2 ^ 43)
    (hcells : ∀ a, (axisCells F.dims a : ℝ) ≤ N) (hint : DoubleInterpolation interp) (he' : flEstimate (roundedQuery roundDouble norm interp)
      (F.computed (roundDouble (1 / F.s)) toGrid toWorld rotate) loc = .value e') (hfr : InFrame F.pose.R F.pose.t (toGrid loc) p)
    (hmid : ∀ a, axisCells F.dims a = 1 ∨ (F.s / 2 + 16 * (2 ^ (-53 : ℤ) * N) * F.s ≤ toGrid loc a ∧
      toGrid loc a ≤ ((axisCells F.dims a : ℝ) - 1 / 2) * F.s - 16 * (2 ^ (-53 : ℤ) * N) * F.s))
    {o : Fin 3 → ℤ} (ho : CellInGrid (axisCells F.dims) o) {x y : Vec ℝ} (hxy : InFrame F.pose.R F.pose.t x y)
    (hx : InClosedCell F.s o x) :
    filled (cellIdx o) = true → e' - (Real.sqrt 3 - 1 / 2 + N / σ + N ^ 2 / 2 ^ 37) * F.s - dist3 p p' ≤ dist3 p' y := by
  rcases hro with ⟨rfl, rfl⟩ | ⟨rfl, rfl⟩
  · exact (C68_clear_ball_inside_float hg hs hs' h1 hN hcells hint he' hfr hmid (p' := p') ho hxy hx).1
  · exact (C68_clear_ball_inside_double hg hs hs' h1 hN hcells hint he' hfr hmid (p' := p') ho hxy hx).1

theorem stored_obstacle_near {filled : Idx → Bool} (hro : StoredAs ro σ) (hg : GeneratedBy ro filled false F)
    (hs : (2 : ℝ) ^ (-100 : ℤ) ≤ F.s) (hs' : F.s ≤ 2 ^ (100 : ℤ)) (h1 : 1 ≤ N) (hN : N ≤ 2 ^ 43)
    (hcells : ∀ a, (axisCells F.dims a : ℝ) ≤ N) (hint : DoubleInterpolation interp) (he' : flEstimate (roundedQuery roundDouble norm interp)
      (F.computed (roundDouble (1 / F.s)) toGrid toWorld rotate) loc = .value e')
    (hmid : ∀ a, axisCells F.dims a = 1 ∨ (F.s / 2 + 16 * (2 ^ (-53 : ℤ) * N) * F.s ≤ toGrid loc a ∧
      toGrid loc a ≤ ((axisCells F.dims a : ℝ) - 1 / 2) * F.s - 16 * (2 ^ (-53 : ℤ) * N) * F.s))
    (hfree : ∀ c, CellInGrid (axisCells F.dims) c → (∀ a, |cellCentre F.s c a - toGrid loc a| ≤ 17 / 16 * F.s) → filled (cellIdx c) = false) :
    ∃ o, CellInGrid (axisCells F.dims) o ∧ filled (cellIdx o) = true ∧
      dist3 (toGrid loc) (cellCentre F.s o) ≤ e' + (1 / 2 + Real.sqrt 3 / 2 + N / σ + N ^ 2 / 2 ^ 37) * F.s := by
  rcases hro with ⟨rfl, rfl⟩ | ⟨rfl, rfl⟩
  · exact C68_obstacle_near_float hg hs hs' h1 hN hcells hint he' hmid hfree
  · exact C68_obstacle_near_double hg hs hs' h1 hN hcells hint he' hmid hfree

/-- The point of the cell next to a place. -/
theorem box_clamp {ε : ℝ} (hε : 0 ≤ ε) (hs : 0 ≤ s) {c : Fin 3 → ℤ} {y : Fin 3 → ℝ} (h : InBoxUpTo ε s t c y) :
    ∃ x, InClosedCell s c x ∧ dist3 (fun a => x a + t a) y ≤ 2 * ε := by
  refine ⟨fun a => max (c a * s) (min (y a - t a) ((c a + 1) * s)), fun a => ⟨le_max_left _ _, max_le (by linarith) (min_le_right _ _)⟩,
    dist3_le_of_coords fun a => ?_⟩
  obtain ⟨h1, h2⟩ := h a
  dsimp only
  rcases le_total (y a - t a) ((c a + 1) * s) with h3 | h3
  · rw [min_eq_left h3]
    rcases le_total (c a * s) (y a - t a) with h4 | h4
    · rw [max_eq_right h4, sub_add_cancel, sub_self, abs_zero]; exact hε
    · rw [max_eq_left h4, abs_le]; constructor <;> linarith
  · rw [min_eq_right h3, max_eq_right (by linarith), abs_le]
    constructor <;> linarith

theorem dist3_le_root {x y : Fin 3 → ℝ} {δ : ℝ} (h : ∀ a, |x a - y a| ≤ δ) : dist3 x y ≤ Real.sqrt 3 * δ := by
  have hδ : 0 ≤ δ := (abs_nonneg _).trans (h 0)
  unfold dist3
  rw [Real.sqrt_le_left (by positivity), mul_pow, Real.sq_sqrt (by norm_num)]
  have s0 := sq_le_sq' (abs_le.1 (h 0)).1 (abs_le.1 (h 0)).2
  have s1 := sq_le_sq' (abs_le.1 (h 1)).1 (abs_le.1 (h 1)).2
  have s2 := sq_le_sq' (abs_le.1 (h 2)).1 (abs_le.1 (h 2)).2
  linarith

theorem cellIdx_of_nat {c : Fin 3 → ℤ} {j : Idx} (e : c = ![(j.1 : ℤ), (j.2.1 : ℤ), (j.2.2 : ℤ)]) : cellIdx c = j := by
  rw [e]
  simp [cellIdx]

theorem cell_in_of_nat {c : Fin 3 → ℤ} {j : Idx} (e : c = ![(j.1 : ℤ), (j.2.1 : ℤ), (j.2.2 : ℤ)]) (h : dims.In j) :
    CellInGrid (axisCells dims) c := by
  rw [e]
  obtain ⟨h1, h2, h3⟩ := h
  intro a
  fin_cases a
  · exact ⟨Int.natCast_nonneg _, by show (j.1 : ℤ) < ((dims.nx : ℕ) : ℤ); exact_mod_cast h1⟩
  · exact ⟨Int.natCast_nonneg _, by show (j.2.1 : ℤ) < ((dims.ny : ℕ) : ℤ); exact_mod_cast h2⟩
  · exact ⟨Int.natCast_nonneg _, by show (j.2.2 : ℤ) < ((dims.nz : ℕ) : ℤ); exact_mod_cast h3⟩

theorem one_filled : occFilled gp (.fin 1) = true := (occFilled_iff gp _).2 (.inl (.inr ⟨1, rfl, by norm_num⟩))

theorem zero_free : occFilled gp (.fin 0) = false := by
  unfold occFilled Fl.half
  cases gp.unknownIsFilled <;> simp [Fl.lt, Fl.eq]

/-- C81, there is a field: every map with a filled and an empty cell has one. -/
theorem C81_field_exists (hok : GenOK ro ⟨dims, s, s, s⟩) {i j : Idx} (hi : dims.In i) (fi : occ i = .fin 0) (hj : dims.In j)
    (fj : occ j = .fin 1) : ∃ F, FieldOfMap ro gp dims s t occ F := by
  obtain ⟨r, hr⟩ := gridRuns_exists hok (isFilledPlain id ⟨⟨dims, s, s, s⟩, occ⟩ gp) gp.addBorder gp.oob
  obtain ⟨out, data, rfl, h⟩ := finite_run (filled := fun i => occFilled gp (occ i)) hok
    (fun i hi => isFilledPlain_toZ id ⟨⟨dims, s, s, s⟩, occ⟩ gp hi) hi (by rw [fi]; exact zero_free) hj (by rw [fj]; exact one_filled) hr
  exact ⟨⟨dims, s, ⟨unturned, t⟩, data⟩, ⟨hok, rfl, rfl, rfl, out, hr, h⟩⟩

/-- C81, there is an answer at every location that is in the grid by a little more than the rounding error of its coordinates. -/
theorem C81_answer_exists (hs : (2 : ℝ) ^ (-100 : ℤ) ≤ s) (hs' : s ≤ 2 ^ (100 : ℤ)) (h1 : 1 ≤ N) (hN : N ≤ 2 ^ 43)
    (hcells : ∀ a, (axisCells dims a : ℝ) ≤ N) (hF : FieldOfMap ro gp dims s t occ F) (hint : DoubleInterpolation interp)
    (hin : ∀ a, 5 * (2 ^ (-53 : ℤ) * N) * s ≤ toGrid loc a ∧ toGrid loc a < (axisCells dims a - 5 * (2 ^ (-53 : ℤ) * N)) * s) :
    ∃ e', FieldAnswers norm interp toGrid toWorld rotate t F loc e' (fun a => toGrid loc a + t a) := by
  have b1 : (2 : ℝ) ^ (-100 : ℤ) ≤ F.s := by rw [hF.edge]; exact hs
  have b2 : F.s ≤ 2 ^ (100 : ℤ) := by rw [hF.edge]; exact hs'
  have hsb : (2 : ℝ) ^ (-1022 : ℤ) ≤ F.s := le_trans (zpow_le_zpow_right₀ (by norm_num) (by norm_num)) b1
  have hsb' : F.s ≤ (2 : ℝ) ^ (1022 : ℤ) := b2.trans (zpow_le_zpow_right₀ (by norm_num) (by norm_num))
  have hpr : Precise (roundDouble : ℝ → ℝ) (2 ^ (-53 : ℤ)) (2 ^ (-1075 : ℤ)) F.s N := precise_double hsb h1 hN
  have hsp := hpr.s0
  have h5 : 0 ≤ 5 * (2 ^ (-53 : ℤ) * N) := by positivity
  rw [← hF.edge, ← hF.dims] at hin
  obtain ⟨e', he'⟩ := (C67_estimate_defined hpr (double_inverse hsb hsb') (norm := norm) (interp := interp) (toGrid := toGrid)
    (toWorld := toWorld) (rotate := rotate) (loc := loc) (fun a => by
      obtain ⟨h1, h2⟩ := hin a
      have h3 : 0 ≤ toGrid loc a := le_trans (by positivity) h1
      rw [abs_of_nonneg h3]
      have h4 : (axisCells F.dims a : ℝ) ≤ N := by rw [hF.dims]; exact hcells a
      exact h2.le.trans (mul_le_mul_of_nonneg_right (by linarith) hsp.le))).1 hin
  exact ⟨e', hint, he', fun a => rfl⟩

/-- A bound for all points of filled cells holds for the points of the surface, up to rounding. -/
theorem surface_bound (hs : (2 : ℝ) ^ (-100 : ℤ) ≤ s) (hs' : s ≤ 2 ^ (100 : ℤ)) (h1 : 1 ≤ N) (hN : N ≤ 2 ^ 43)
    (hT : ∀ a, |t a| ≤ T) (hm : FineMesh N s D t vertices triangles)
    (hrun : FlMeshRuns (rastOver (roundedArith roundDouble) root3Double) (shiftedMap roundDouble dims s t) true vertices triangles
      (fun _ => .fin 0) false occ) {A : ℝ} (hA : ∀ c, CellInGrid (axisCells dims) c → occFilled gp (occ (cellIdx c)) = true → ∀ x,
      InClosedCell s c x → A ≤ dist3 p' (fun a => x a + t a)) {Y Y' : Fin 3 → ℝ} (hY : OnMesh vertices triangles Y)
    (haway : AwayFromCorners (N * s / 2 ^ 50) (D + (T + 28 * (N * s)) / 2 ^ 51) s t Y) :
    A - N * s / 2 ^ 49 - dist3 Y Y' ≤ dist3 p' Y' := by
  have s0 : 0 < s := lt_of_lt_of_le (by positivity) hs
  obtain ⟨c, hbox, hfill⟩ := (C80_fine_mesh_double hs hs' h1 hN hT hm hrun).2.1 Y hY
  obtain ⟨j, hj, ej, hocc⟩ := hfill (by have := haway c hbox; linarith)
  obtain ⟨x, hx, hxY⟩ := box_clamp (by positivity) s0.le hbox
  have hb := hA c (cell_in_of_nat ej hj) (by rw [cellIdx_of_nat ej, hocc]; exact one_filled) x hx
  have t1 := dist3_triangle p' Y (fun a => x a + t a)
  have t2 := dist3_triangle p' Y' Y
  rw [dist3_comm Y (fun a => x a + t a)] at t1
  rw [dist3_comm Y' Y] at t2
  have e : N * s / 2 ^ 49 = 2 * (N * s / 2 ^ 50) := by ring
  rw [e]
  linarith

/-- C81, not too large: no point of the surface is nearer to the location than the answer, less the margin of the field (√3 + 3 cell
edges and rounding), if the point is away from corners of cells by the size of the triangles; other points inherit the
bound from such a point next to them. -/
theorem C81_clearance (hs : (2 : ℝ) ^ (-100 : ℤ) ≤ s) (hs' : s ≤ 2 ^ (100 : ℤ)) (h1 : 1 ≤ N) (hN : N ≤ 2 ^ 43)
    (hcells : ∀ a, (axisCells dims a : ℝ) ≤ N) (hT : ∀ a, |t a| ≤ T) (hm : FineMesh N s D t vertices triangles)
    (hrun : FlMeshRuns (rastOver (roundedArith roundDouble) root3Double) (shiftedMap roundDouble dims s t) true vertices triangles
      (fun _ => .fin 0) false occ) (hro : StoredAs ro σ) (hF : FieldOfMap ro gp dims s t occ F)
    (hA : FieldAnswers norm interp toGrid toWorld rotate t F loc e' p) {Y Y' : Fin 3 → ℝ} (hY : OnMesh vertices triangles Y)
    (haway : AwayFromCorners (N * s / 2 ^ 50) (D + (T + 28 * (N * s)) / 2 ^ 51) s t Y) :
    e' - (Real.sqrt 3 + 3 + N / σ + N ^ 2 / 2 ^ 37) * s - dist3 p p' - N * s / 2 ^ 49 - dist3 Y Y' ≤ dist3 p' Y' := by
  refine surface_bound (gp := gp) hs hs' h1 hN hT hm hrun (fun c hc hf x hx => ?_) hY haway
  have hb := (stored_clear_ball hro hF.generated (by rw [hF.edge]; exact hs) (by rw [hF.edge]; exact hs') h1 hN
    (by rw [hF.dims]; exact hcells) hA.interp_double hA.answer (p := p) (by rw [hF.pose]; exact unturned_frame.mpr hA.place)
    (p' := p') (o := c) (by rw [hF.dims]; exact hc) (x := x) (y := fun a => x a + t a)
    (by rw [hF.pose]; exact unturned_frame.mpr fun a => rfl) (by rw [hF.edge]; exact hx)) hf
  rw [hF.edge] at hb
  exact hb

/-- C81, away from the outer half of the outer cells the margin is √3 - 1/2 cell edges and rounding. -/
theorem C81_clearance_inside (hs : (2 : ℝ) ^ (-100 : ℤ) ≤ s) (hs' : s ≤ 2 ^ (100 : ℤ)) (h1 : 1 ≤ N) (hN : N ≤ 2 ^ 43)
    (hcells : ∀ a, (axisCells dims a : ℝ) ≤ N) (hT : ∀ a, |t a| ≤ T) (hm : FineMesh N s D t vertices triangles)
    (hrun : FlMeshRuns (rastOver (roundedArith roundDouble) root3Double) (shiftedMap roundDouble dims s t) true vertices triangles
      (fun _ => .fin 0) false occ) (hro : StoredAs ro σ) (hF : FieldOfMap ro gp dims s t occ F)
    (hA : FieldAnswers norm interp toGrid toWorld rotate t F loc e' p)
    (hmid : ∀ a, axisCells dims a = 1 ∨ (s / 2 + 16 * (2 ^ (-53 : ℤ) * N) * s ≤ toGrid loc a ∧
      toGrid loc a ≤ ((axisCells dims a : ℝ) - 1 / 2) * s - 16 * (2 ^ (-53 : ℤ) * N) * s))
    {Y Y' : Fin 3 → ℝ} (hY : OnMesh vertices triangles Y)
    (haway : AwayFromCorners (N * s / 2 ^ 50) (D + (T + 28 * (N * s)) / 2 ^ 51) s t Y) :
    e' - (Real.sqrt 3 - 1 / 2 + N / σ + N ^ 2 / 2 ^ 37) * s - dist3 p p' - N * s / 2 ^ 49 - dist3 Y Y' ≤ dist3 p' Y' := by
  refine surface_bound (gp := gp) hs hs' h1 hN hT hm hrun (fun c hc hf x hx => ?_) hY haway
  have hb := (stored_clear_ball_inside hro hF.generated (by rw [hF.edge]; exact hs) (by rw [hF.edge]; exact hs') h1 hN
    (by rw [hF.dims]; exact hcells) hA.interp_double hA.answer (p := p) (by rw [hF.pose]; exact unturned_frame.mpr hA.place)
    (by rw [hF.edge, hF.dims]; exact hmid) (p' := p') (o := c) (by rw [hF.dims]; exact hc) (x := x) (y := fun a => x a + t a)
    (by rw [hF.pose]; exact unturned_frame.mpr fun a => rfl) (by rw [hF.edge]; exact hx)) hf
  rw [hF.edge] at hb
  exact hb

/-- C81, not too small: at a location with nothing of the surface in the cells around it and not in the outer half of an outer
cell, the surface is about as near as the answer says (field without virtual border). -/
theorem C81_surface_near (hs : (2 : ℝ) ^ (-100 : ℤ) ≤ s) (hs' : s ≤ 2 ^ (100 : ℤ)) (h1 : 1 ≤ N) (hN : N ≤ 2 ^ 43)
    (hcells : ∀ a, (axisCells dims a : ℝ) ≤ N) (hT : ∀ a, |t a| ≤ T) (hm : FineMesh N s D t vertices triangles)
    (hrun : FlMeshRuns (rastOver (roundedArith roundDouble) root3Double) (shiftedMap roundDouble dims s t) true vertices triangles
      (fun _ => .fin 0) false occ) (hro : StoredAs ro σ) (hF : FieldOfMap ro gp dims s t occ F) (hb : gp.addBorder = false)
    (hA : FieldAnswers norm interp toGrid toWorld rotate t F loc e' p)
    (hmid : ∀ a, axisCells dims a = 1 ∨ (s / 2 + 16 * (2 ^ (-53 : ℤ) * N) * s ≤ toGrid loc a ∧
      toGrid loc a ≤ ((axisCells dims a : ℝ) - 1 / 2) * s - 16 * (2 ^ (-53 : ℤ) * N) * s))
    (hopen : ∀ Y, OnMesh vertices triangles Y → ∃ a, 25 / 16 * s + D + N * s / 2 ^ 50 < |Y a - p a|) :
    ∃ Y, OnMesh vertices triangles Y ∧ dist3 p' Y ≤
      e' + (1 / 2 + Real.sqrt 3 + N / σ + N ^ 2 / 2 ^ 37) * s + Real.sqrt 3 * (D + N * s / 2 ^ 50) + dist3 p p' := by
  have s0 : 0 < s := lt_of_lt_of_le (by positivity) hs
  have hnear := (C80_fine_mesh_double hs hs' h1 hN hT hm hrun).2.2
  have hzero : ∀ j, occFilled gp (occ j) = true → occ j ≠ .fin 0 := by
    intro j hf e
    rw [e, zero_free] at hf
    cases hf
  have hg := hF.generated
  rw [hb] at hg
  have hcoord : ∀ c, CellInGrid (axisCells dims) c → c = ![((cellIdx c).1 : ℤ), ((cellIdx c).2.1 : ℤ), ((cellIdx c).2.2 : ℤ)] := by
    intro c hc
    funext a
    have h0 := (hc a).1
    fin_cases a
    · exact (Int.toNat_of_nonneg h0).symm
    · exact (Int.toNat_of_nonneg h0).symm
    · exact (Int.toNat_of_nonneg h0).symm
  have hfound : ∀ c, CellInGrid (axisCells dims) c → occFilled gp (occ (cellIdx c)) = true → ∃ Y, OnMesh vertices triangles Y ∧ ∀ a,
      |Y a - worldCentre s t c a| ≤ s / 2 + D + N * s / 2 ^ 50 := by
    intro c hc hf
    obtain ⟨-, -, Y, hY, hYa⟩ := hnear (cellIdx c) (hzero _ hf)
    rw [← hcoord c hc] at hYa
    exact ⟨Y, hY, hYa⟩
  obtain ⟨o, ho, hfo, hdo⟩ := stored_obstacle_near hro hg (by rw [hF.edge]; exact hs) (by rw [hF.edge]; exact hs') h1 hN
    (by rw [hF.dims]; exact hcells) hA.interp_double hA.answer (by rw [hF.edge, hF.dims]; exact hmid) (by
      intro c hc hca
      rw [hF.dims] at hc
      rw [hF.edge] at hca
      by_contra hne
      obtain ⟨Y, hY, hYa⟩ := hfound c hc (by simpa using hne)
      obtain ⟨a, ha⟩ := hopen Y hY
      have k1 := abs_le.1 (hYa a)
      have k2 := abs_le.1 (hca a)
      have k3 : worldCentre s t c a = cellCentre s c a + t a := rfl
      have k4 := hA.place a
      refine absurd ha (not_lt.2 (abs_le.2 ?_))
      rw [k3] at k1
      constructor <;> linarith [k1.1, k1.2, k2.1, k2.2])
  rw [hF.dims] at ho
  rw [hF.edge] at hdo
  obtain ⟨Y, hY, hYa⟩ := hfound o ho hfo
  refine ⟨Y, hY, ?_⟩
  have d1 : dist3 p (worldCentre s t o) = dist3 (toGrid loc) (cellCentre s o) :=
    dist3_frame unturned_orthogonal (t := t) (unturned_frame.mpr hA.place) (unturned_frame.mpr fun a => rfl)
  have d2 := dist3_le_root hYa
  have d3 := dist3_triangle p' p Y
  have d4 := dist3_triangle p (worldCentre s t o) Y
  rw [dist3_comm (worldCentre s t o) Y] at d4
  rw [dist3_comm p' p] at d3
  have e : Real.sqrt 3 * (s / 2 + D + N * s / 2 ^ 50) = Real.sqrt 3 / 2 * s + Real.sqrt 3 * (D + N * s / 2 ^ 50) := by ring
  rw [e] at d2
  have e2 : (1 / 2 + Real.sqrt 3 + N / σ + N ^ 2 / 2 ^ 37) * s =
      (1 / 2 + Real.sqrt 3 / 2 + N / σ + N ^ 2 / 2 ^ 37) * s + Real.sqrt 3 / 2 * s := by ring
  rw [e2]
  linarith

/-- C81, from mesh to answer: the map that `RasterizeMeshIntoOccupancyMap` makes in `double` for a mesh with coordinates within `M ≤ 2^40`
cells of the world's origin and triangles with sides up to `D`, its field and any answer of the field.  `N` bounds the cells of the
map along an axis. -/
theorem C81_new_map {res M : ℝ} (hs : (2 : ℝ) ^ (-100 : ℤ) ≤ res) (hs' : res ≤ 2 ^ (100 : ℤ)) (hM0 : 0 ≤ M) (hM : M ≤ 2 ^ 40)
    {v : Fin 3 → ℝ} {vs : List (Fin 3 → ℝ)} (hrep : ∀ w ∈ v :: vs, ∀ a, roundDouble (w a) = w a)
    (hsize : ∀ w ∈ v :: vs, ∀ a, |w a| ≤ M * res)
    (hidx : ∀ t ∈ triangles, ∀ k, k = t.1 ∨ k = t.2.1 ∨ k = t.2.2 → 0 ≤ k ∧ k < ((v :: vs).length : ℤ))
    (hside : ∀ v1 v2 v3, HasTriangle (v :: vs) triangles v1 v2 v3 → SidesAtMost D v1 v2 v3 ∧ NormalInRange v1 v2 v3) :
    ∃ m t occ', flMeshMap (rastOver (roundedArith roundDouble) root3Double) (fun x => some ⌈x⌉) 2 res v vs = some m ∧
      (∀ a, |t a - (meshLow v vs a - res)| ≤ (M + 2) * res / 2 ^ 53) ∧
      FlMeshRuns (rastOver (roundedArith roundDouble) root3Double) m true (v :: vs) triangles (fun _ => .fin 0) false occ' ∧
      (∀ threw occ'', FlMeshRuns (rastOver (roundedArith roundDouble) root3Double) m true (v :: vs) triangles (fun _ => .fin 0)
        threw occ'' → threw = false ∧ occ'' = occ') ∧
      ∀ N, 2 * M + 5 ≤ N → N ≤ 2 ^ 43 → (∀ a, (axisCells m.dims a : ℝ) ≤ N) → ∀ ro σ gp F, StoredAs ro σ → FieldOfMap ro gp m.dims res t occ' F →
        ∀ norm interp toGrid toWorld rotate loc e' p, FieldAnswers norm interp toGrid toWorld rotate t F loc e' p → ∀ p',
        (∀ Y Y', OnMesh (v :: vs) triangles Y →
          AwayFromCorners (N * res / 2 ^ 50) (D + ((M + 2) * res + 28 * (N * res)) / 2 ^ 51) res t Y →
          e' - (Real.sqrt 3 + 3 + N / σ + N ^ 2 / 2 ^ 37) * res - dist3 p p' - N * res / 2 ^ 49 - dist3 Y Y' ≤ dist3 p' Y') ∧
        ((∀ a, axisCells m.dims a = 1 ∨ (res / 2 + 16 * (2 ^ (-53 : ℤ) * N) * res ≤ toGrid loc a ∧
            toGrid loc a ≤ ((axisCells m.dims a : ℝ) - 1 / 2) * res - 16 * (2 ^ (-53 : ℤ) * N) * res)) →
          (∀ Y Y', OnMesh (v :: vs) triangles Y →
            AwayFromCorners (N * res / 2 ^ 50) (D + ((M + 2) * res + 28 * (N * res)) / 2 ^ 51) res t Y →
            e' - (Real.sqrt 3 - 1 / 2 + N / σ + N ^ 2 / 2 ^ 37) * res - dist3 p p' - N * res / 2 ^ 49 - dist3 Y Y' ≤ dist3 p' Y') ∧
          (gp.addBorder = false → (∀ Y, OnMesh (v :: vs) triangles Y → ∃ a, 25 / 16 * res + D + N * res / 2 ^ 50 < |Y a - p a|) →
            ∃ Y, OnMesh (v :: vs) triangles Y ∧ dist3 p' Y ≤ e' + (1 / 2 + Real.sqrt 3 + N / σ + N ^ 2 / 2 ^ 37) * res +
              Real.sqrt 3 * (D + N * res / 2 ^ 50) + dist3 p p')) := by
  have res0 : 0 < res := lt_of_lt_of_le (by positivity) hs
  obtain ⟨m, t, occ', hmap, herr, hT, hfine, hshift, hrun, huniq⟩ := new_map_fine hs hs' hM0 hM hrep hsize hidx hside
  refine ⟨m, t, occ', hmap, herr, hrun, huniq, fun N hN1 hN2 hcells ro σ gp F hro hF norm interp toGrid toWorld rotate loc e' p hA p' => ?_⟩
  have h1 : 1 ≤ N := by linarith
  have hm : FineMesh N res D t (v :: vs) triangles :=
    ⟨fun w hw a => (hfine.within w hw a).trans (mul_le_mul_of_nonneg_right (by linarith) res0.le), hfine.sides, hfine.normal⟩
  rw [hshift] at hrun
  exact ⟨fun Y Y' hY ha => C81_clearance hs hs' h1 hN2 hcells hT hm hrun hro hF hA hY ha, fun hmid =>
    ⟨fun Y Y' hY ha => C81_clearance_inside hs hs' h1 hN2 hcells hT hm hrun hro hF hA hmid hY ha, fun hb ho =>
      C81_surface_near hs hs' h1 hN2 hcells hT hm hrun hro hF hb hA hmid ho⟩⟩

end

/-! ### A mesh -/

theorem exampleMesh_high : meshHigh (![0, 0, 0] : Fin 3 → ℝ) exampleMesh = ![61, 61, 60] := by
  funext a
  fin_cases a <;> norm_num [meshHigh, exampleMesh]

theorem roundDouble_eighth {n : ℤ} (h : |n| ≤ 2 ^ 53) : roundDouble ((n : ℝ) / 8) = n / 8 := by
  have := rne_exact (K := ℝ) (p := 53) (emin := -1074) n (-3) (by norm_num) h (by norm_num)
  have e : (n : ℝ) * 2 ^ (-3 : ℤ) = n / 8 := by rw [zpow_neg]; norm_num; ring
  rw [e] at this
  exact this

theorem exampleMesh_dims {m : FlRastMap ℝ}
    (h : flMeshMap (rastOver (roundedArith roundDouble) root3Double) (fun x => some ⌈x⌉) 2 8 ![0, 0, 0] exampleMesh = some m) :
    m.dims = ⟨10, 10, 10⟩ := by
  unfold flMeshMap at h
  split_ifs at h
  obtain ⟨n, hn, rfl⟩ := Option.map_eq_some_iff.mp h
  have hn' := axes3_some.mp hn
  have hl := flMeshLow_rounded (A := rastOver (roundedArith roundDouble) root3Double) (r := roundDouble) rfl exampleMesh ![0, 0, 0]
  have hh := flMeshHigh_rounded (A := rastOver (roundedArith roundDouble) root3Double) (r := roundDouble) rfl exampleMesh ![0, 0, 0]
  simp only [hl, hh, exampleMesh_high, exampleMesh_low] at hn'
  have r16 : roundDouble ((8 : ℝ) * 2) = 16 := by
    have := roundDouble_int_real (n := 16) (by norm_num)
    norm_num at this ⊢
    exact this
  have key : ∀ k : ℤ, |k| ≤ 1000 → roundDouble (roundDouble (roundDouble ((k : ℝ) - 0) + roundDouble ((8 : ℝ) * 2)) / 8) = ((k : ℝ) + 16) / 8 := by
    intro k hk
    have e1 : roundDouble (k : ℝ) = k := roundDouble_int_real (hk.trans (by norm_num))
    have b : |k + 16| ≤ 2 ^ 53 := (abs_add_le k 16).trans (by norm_num; linarith)
    have e2 : roundDouble ((k : ℝ) + 16) = (k : ℝ) + 16 := by
      have := roundDouble_int_real b
      push_cast at this
      exact this
    have e3 := roundDouble_eighth b
    push_cast at e3
    rw [sub_zero, e1, r16, e2, e3]
  have h0 : ⌈roundDouble (roundDouble (roundDouble ((61 : ℝ) - 0) + roundDouble ((8 : ℝ) * 2)) / 8)⌉ = n 0 := Option.some.inj (hn' 0)
  have h1 : ⌈roundDouble (roundDouble (roundDouble ((61 : ℝ) - 0) + roundDouble ((8 : ℝ) * 2)) / 8)⌉ = n 1 := Option.some.inj (hn' 1)
  have h2 : ⌈roundDouble (roundDouble (roundDouble ((60 : ℝ) - 0) + roundDouble ((8 : ℝ) * 2)) / 8)⌉ = n 2 := Option.some.inj (hn' 2)
  have k61 := key 61 (by norm_num)
  have k60 := key 60 (by norm_num)
  push_cast at k61 k60
  rw [k61] at h0 h1
  rw [k60] at h2
  have c0 : n 0 = 10 := by rw [← h0]; exact Int.ceil_eq_iff.mpr (by norm_num)
  have c1 : n 1 = 10 := by rw [← h1]; exact Int.ceil_eq_iff.mpr (by norm_num)
  have c2 : n 2 = 10 := by rw [← h2]; exact Int.ceil_eq_iff.mpr (by norm_num)
  simp [c0, c1, c2]

theorem example_ok : GenOK floatSDF ⟨⟨10, 10, 10⟩, 8, 8, 8⟩ where
  rq := roundDouble_isDoubleRounding
  rr := roundDouble_isRounding
  rc := roundFloat_isRounding
  uniform := ⟨rfl, rfl⟩
  res := by norm_num
  repr := by
    have := roundDouble_int_real (n := 8) (by norm_num)
    push_cast at this
    exact this
  castPos := by
    have h1 : floatSDF.cast 1 = 1 := roundFloat_isRounding.one
    have h2 : floatSDF.cast 1 ≤ floatSDF.cast 8 := roundFloat_isRounding.mono 1 8 (by norm_num)
    linarith
  fits := by constructor <;> decide

/-- Triangles at 0 and at 60 units on each axis, in cells of 8 units; the location is at 30, with any transform nearly right. -/
theorem exampleMesh_answers : ∃ (F : SDFGrid ℝ) (t : Fin 3 → ℝ), F.pose = ⟨unturned, t⟩ ∧ F.s = 8 ∧ (∀ a, |t a + 8| ≤ 1 / 100) ∧
    ∀ toGrid : Vec4 ℝ → Fin 3 → ℝ, (∀ a, |toGrid (point4 fun _ => 30) a - (30 - t a)| ≤ 1 / 100) → ∃ e',
    FieldAnswers (fun _ => 0) (flTrilinear (roundedArith roundDouble)) toGrid id id t F (point4 fun _ => 30) e'
      (fun a => toGrid (point4 fun _ => 30) a + t a) ∧
    e' - (Real.sqrt 3 - 1 / 2 + 21 / 2 ^ 18 + 21 ^ 2 / 2 ^ 37) * 8 - 21 * 8 / 2 ^ 49 - dist3 (fun a => toGrid (point4 fun _ => 30) a + t a) (fun _ => 30) ≤
      dist3 (fun _ => 30) ![60, 60, 60] ∧
    ∃ Y, OnMesh (![0, 0, 0] :: exampleMesh) [(0, 1, 2), (3, 4, 5)] Y ∧ dist3 (fun _ => 30) Y ≤
      e' + (1 / 2 + Real.sqrt 3 + 21 / 2 ^ 18 + 21 ^ 2 / 2 ^ 37) * 8 + Real.sqrt 3 * (2 + 21 * 8 / 2 ^ 50) +
        dist3 (fun a => toGrid (point4 fun _ => 30) a + t a) (fun _ => 30) := by
  obtain ⟨m, t, occ', hmap, ht, hrun, huniq, hmain⟩ := C81_new_map eight_in_range.1 eight_in_range.2 (by norm_num) (by norm_num)
    exampleMesh_rep exampleMesh_near exampleMesh_idx exampleMesh_fine
  obtain ⟨m2, t2, occ2, hmap2, ht2, hrun2, -, -, hfill2, hnear2⟩ := C80_new_map_double eight_in_range.1 eight_in_range.2 (by norm_num)
    (by norm_num) exampleMesh_rep exampleMesh_near exampleMesh_idx exampleMesh_fine
  obtain rfl : m2 = m := Option.some.inj (hmap2.symm.trans hmap)
  obtain ⟨-, rfl⟩ := huniq _ _ hrun2
  have hd := exampleMesh_dims hmap
  have o1 := exampleMesh_origin ht
  have o2 := exampleMesh_origin ht2
  obtain ⟨hin, hone⟩ := exampleMesh_filled o2 hfill2
  -- points of the surface are near 0 or near 60 on every axis
  have hsurf : ∀ Y, OnMesh (![0, 0, 0] :: exampleMesh) [(0, 1, 2), (3, 4, 5)] Y → Y 2 ≤ 0 ∨ 60 ≤ Y 2 := by
    rintro Y ⟨v1, v2, v3, hv, hY⟩
    obtain ⟨b1, b2⟩ := onTriangle_bounds hY 2
    rcases exampleMesh_triangles hv with ⟨rfl, rfl, rfl⟩ | ⟨rfl, rfl, rfl⟩
    · left
      have e : max (max ((![0, 0, 0] : Fin 3 → ℝ) 2) ((![1, 0, 0] : Fin 3 → ℝ) 2)) ((![0, 1, 0] : Fin 3 → ℝ) 2) = 0 := by
        show max (max (0 : ℝ) 0) 0 = 0
        norm_num
      exact b2.trans e.le
    · right
      have e : min (min ((![60, 60, 60] : Fin 3 → ℝ) 2) ((![61, 60, 60] : Fin 3 → ℝ) 2)) ((![60, 61, 60] : Fin 3 → ℝ) 2) = 60 := by
        show min (min (60 : ℝ) 60) 60 = 60
        norm_num
      exact e.ge.trans b1
  have hzero : occ2 (4, 4, 4) = .fin 0 := by
    by_contra hne
    obtain ⟨-, -, Y, hY, hYa⟩ := hnear2 (4, 4, 4) hne
    have k := abs_le.1 (hYa 2)
    have e : worldCentre 8 t2 ![(((4, 4, 4) : Idx).1 : ℤ), (((4, 4, 4) : Idx).2.1 : ℤ), (((4, 4, 4) : Idx).2.2 : ℤ)] 2 = 36 + t2 2 := by
      show ((4 : ℤ) : ℝ) * 8 + 8 / 2 + t2 2 = _
      norm_num
    rw [e] at k
    have k2 := abs_le.1 (o2 2)
    have : ((8 : ℝ) + 3) * 8 / 2 ^ 49 ≤ 1 / 100 := by norm_num
    rcases hsurf Y hY with h | h <;> linarith [k.1, k.2, k2.1, k2.2]
  rw [hd] at hin hmain
  obtain ⟨F, hF⟩ := C81_field_exists (gp := ⟨.fin 0, false, false⟩) (t := t) example_ok (i := (4, 4, 4)) (by decide) hzero hin hone
  have hcells : ∀ a, (axisCells ⟨10, 10, 10⟩ a : ℝ) ≤ 21 := by intro a; fin_cases a <;> norm_num [axisCells]
  have hax : ∀ a, (axisCells ⟨10, 10, 10⟩ a : ℝ) = 10 := by intro a; fin_cases a <;> norm_num [axisCells]
  have e53 : (2 : ℝ) ^ (-53 : ℤ) = 1 / 2 ^ 53 := by rw [zpow_neg, one_div]; norm_cast
  refine ⟨F, t, hF.pose, hF.edge, o1, fun toGrid htg => ?_⟩
  have hgrid : ∀ a, (37 : ℝ) ≤ toGrid (point4 fun _ => 30) a ∧ toGrid (point4 fun _ => 30) a ≤ 39 := by
    intro a
    have k := abs_le.1 (o1 a)
    have k' := abs_le.1 (htg a)
    constructor <;> linarith [k.1, k.2, k'.1, k'.2]
  obtain ⟨e', hA⟩ := C81_answer_exists (norm := fun _ => 0) (interp := flTrilinear (roundedArith roundDouble))
    (toGrid := toGrid) (toWorld := id) (rotate := id) (loc := point4 fun _ => 30) (N := 21)
    eight_in_range.1 eight_in_range.2 (by norm_num) (by norm_num) hcells hF (.inl rfl) (fun a => by
      rw [hax, e53]
      obtain ⟨k1, k2⟩ := hgrid a
      constructor
      · exact le_trans (by norm_num) k1
      · exact lt_of_le_of_lt k2 (by norm_num))
  obtain ⟨-, hb⟩ := hmain 21 (by norm_num) (by norm_num) hcells _ _ _ F (.inl ⟨rfl, rfl⟩) hF _ _ _ _ _ _ e' _ hA (fun _ => 30)
  obtain ⟨g1, g2⟩ := hb (fun a => by
    right
    rw [hax, e53]
    obtain ⟨k1, k2⟩ := hgrid a
    constructor
    · exact le_trans (by norm_num) k1
    · exact k2.trans (by norm_num))
  have hself : ∀ x : Fin 3 → ℝ, dist3 x x = 0 := fun x => by unfold dist3; simp
  refine ⟨e', hA, ?_, ?_⟩
  · have c60 : ∀ a : Fin 3, (![60, 60, 60] : Fin 3 → ℝ) a = 60 := by intro a; fin_cases a <;> rfl
    have := g1 ![60, 60, 60] ![60, 60, 60] exampleMesh_on (fun c hc => by
      have hc8 : ∀ a, c a = 8 := by
        intro a
        obtain ⟨k1, k2⟩ := hc a
        have k := abs_le.1 (o1 a)
        rw [c60] at k1 k2
        have e : (21 : ℝ) * 8 / 2 ^ 50 ≤ 1 / 100 := by norm_num
        have i1 : (c a : ℝ) < 9 := by linarith [k.1]
        have i2 : (7 : ℝ) < c a := by linarith [k.2]
        have j1 : c a < 9 := by exact_mod_cast i1
        have j2 : 7 < c a := by exact_mod_cast i2
        omega
      have k : dist3 ![60, 60, 60] (worldCentre 8 t c) ≤ 2 * (1 / 100) := dist3_le_two fun a => by
        have k := abs_le.1 (o1 a)
        have e : worldCentre 8 t c a = 68 + t a := by
          show ((c a : ℝ) * 8 + 8 / 2) + t a = _
          rw [hc8]
          norm_num
        rw [c60, e, abs_le]
        constructor <;> linarith [k.1, k.2]
      have k3 : (1.7 : ℝ) ≤ Real.sqrt 3 := Real.le_sqrt_of_sq_le (by norm_num)
      have : (2 : ℝ) + ((8 + 2) * 8 + 28 * (21 * 8)) / 2 ^ 51 ≤ 2 + 1 / 100 := by norm_num
      linarith)
    rw [hself] at this
    linarith
  · obtain ⟨Y, hY, hd⟩ := g2 rfl (fun Y hY => ⟨2, by
      have e : (25 : ℝ) / 16 * 8 + 2 + 21 * 8 / 2 ^ 50 < 29 := by norm_num
      refine lt_of_lt_of_le e ?_
      have k := abs_le.1 (htg 2)
      rcases hsurf Y hY with h | h
      · rw [le_abs]; right; linarith [k.1, k.2]
      · rw [le_abs]; left; linarith [k.1, k.2]⟩)
    exact ⟨Y, hY, by linarith⟩

/-- With an exact transform `C81_new_map` gives a lower and an upper bound for the distance of the location to the surface. -/
example : ∃ (F : SDFGrid ℝ) (t : Fin 3 → ℝ) (e' : ℝ),
    FieldAnswers (fun _ => 0) (flTrilinear (roundedArith roundDouble)) (fun l a => l.v a - t a) id id t F (point4 fun _ => 30) e' (fun _ => 30) ∧
    e' - (Real.sqrt 3 - 1 / 2 + 21 / 2 ^ 18 + 21 ^ 2 / 2 ^ 37) * 8 - 21 * 8 / 2 ^ 49 ≤ dist3 (fun _ => 30) ![60, 60, 60] ∧
    ∃ Y, OnMesh (![0, 0, 0] :: exampleMesh) [(0, 1, 2), (3, 4, 5)] Y ∧ dist3 (fun _ => 30) Y ≤
      e' + (1 / 2 + Real.sqrt 3 + 21 / 2 ^ 18 + 21 ^ 2 / 2 ^ 37) * 8 + Real.sqrt 3 * (2 + 21 * 8 / 2 ^ 50) := by
  obtain ⟨F, t, -, -, -, h⟩ := exampleMesh_answers
  have e30 : ∀ a, (point4 (fun _ => (30 : ℝ))).v a = 30 := fun _ => rfl
  obtain ⟨e', hA, h1, Y, hY, h2⟩ := h (fun l a => l.v a - t a) (fun a => by rw [e30, sub_self, abs_zero]; norm_num)
  have hp : (fun a => (point4 (fun _ => (30 : ℝ))).v a - t a + t a) = fun _ => (30 : ℝ) := by
    funext a
    rw [sub_add_cancel, e30]
  have hself : dist3 (fun _ => (30 : ℝ)) (fun _ => 30) = 0 := by unfold dist3; simp
  rw [hp] at hA h1 h2
  rw [hself, sub_zero] at h1
  rw [hself, add_zero] at h2
  exact ⟨F, t, e', hA, h1, Y, hY, h2⟩

end VGT
