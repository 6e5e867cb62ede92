import Verif.Props.GradientFloat
import Verif.Lemmas.FineMesh

/-!
C80: rasterization of meshes with small triangles, every operation rounded (mesh_rasterizer.cpp:26-229).

`CalcClosestPointOnTriangle` does not give the closest point: among the candidates on the edges it takes the one nearest to the
origin (`C43_not_the_closest`), and its projection depends on a normal that may be dominated by rounding errors.  But it
gives a point that is not farther from the centre of the cell than any point of the triangle plus the longest side.
-/
set_option autoImplicit false

namespace VGT
open VGT.EDT VGT.Spec

section
variable {r : ℝ → ℝ} {u η s N root3 : ℝ} {dims : Dims} {t : Fin 3 → ℝ} {T : ℝ} {enforce : Bool} {vertices : List (Fin 3 → ℝ)}
  {triangles : List (ℤ × ℤ × ℤ)} {occ occ' : Idx → Fl}

/-- The computed normal of a triangle (mesh_rasterizer.cpp:126-131). -/
noncomputable def roundedNormal (r : ℝ → ℝ) (v1 v2 v3 : Fin 3 → ℝ) : Fin 3 → ℝ :=
  (rastOver (roundedArith r) 0).cross (flVsub (rastOver (roundedArith r) 0) v2 v1) (flVsub (rastOver (roundedArith r) 0) v3 v1)

/-- The vertex is within `N - 3` cells of the origin of the map, on each axis. -/
def Spec.WithinCells (N s : ℝ) (t v : Fin 3 → ℝ) : Prop := ∀ a, |v a - t a| ≤ (N - 3) * s

theorem index_low (h : RasterFine r u η s N root3) {w x c t : ℝ} (hw : |w - t| ≤ (N - 1) * s) (hwx : w ≤ x)
    (hx : x - t ≤ (c + 1) * s - 8 * (u * (N * s))) : r (r (w - t) * r (1 / s)) < c + 1 := by
  have s0 := h.s0
  have N1 := h.one_le
  have h1 := (abs_le.1 (h.index hw)).2
  have h2 : (w - t) / s ≤ c + 1 - 8 * (u * N) := by
    rw [div_le_iff₀ s0]
    have e : (c + 1 - 8 * (u * N)) * s = (c + 1) * s - 8 * (u * (N * s)) := by ring
    linarith
  have : 0 < u * N := mul_pos h.u_pos (by linarith)
  linarith

theorem index_high (h : RasterFine r u η s N root3) {w x c t : ℝ} (hw : |w - t| ≤ (N - 1) * s) (hwx : x ≤ w)
    (hx : c * s + 8 * (u * (N * s)) ≤ x - t) : c ≤ r (r (w - t) * r (1 / s)) := by
  have s0 := h.s0
  have N1 := h.one_le
  have h1 := (abs_le.1 (h.index hw)).1
  have h2 : c + 8 * (u * N) ≤ (w - t) / s := by
    rw [le_div_iff₀ s0]
    have e : (c + 8 * (u * N)) * s = c * s + 8 * (u * (N * s)) := by ring
    linarith
  have : 0 < u * N := mul_pos h.u_pos (by linarith)
  linarith

theorem within_min (hs : 0 ≤ s) {v1 v2 v3 : Fin 3 → ℝ} (h1 : WithinCells N s t v1) (h2 : WithinCells N s t v2) (h3 : WithinCells N s t v3)
    (a : Fin 3) : |min (min (v1 a) (v2 a)) (v3 a) - t a| ≤ (N - 1) * s ∧ |max (max (v1 a) (v2 a)) (v3 a) - t a| ≤ (N - 1) * s := by
  have e : (N - 1) * s = (N - 3) * s + 2 * s := by ring
  have h1 : |v1 a - t a| ≤ (N - 1) * s := (h1 a).trans (by linarith)
  have h2 : |v2 a - t a| ≤ (N - 1) * s := (h2 a).trans (by linarith)
  have h3 : |v3 a - t a| ≤ (N - 1) * s := (h3 a).trans (by linarith)
  constructor
  · rcases min_choice (min (v1 a) (v2 a)) (v3 a) with e | e
    · rw [e]
      rcases min_choice (v1 a) (v2 a) with e | e <;> rw [e]
      exacts [h1, h2]
    · rw [e]; exact h3
  · rcases max_choice (max (v1 a) (v2 a)) (v3 a) with e | e
    · rw [e]
      rcases max_choice (v1 a) (v2 a) with e | e <;> rw [e]
      exacts [h1, h2]
    · rw [e]; exact h3

theorem on_triangle_between {v1 v2 v3 p : Fin 3 → ℝ} (h : OnTriangle v1 v2 v3 p) (a : Fin 3) :
    min (min (v1 a) (v2 a)) (v3 a) ≤ p a ∧ p a ≤ max (max (v1 a) (v2 a)) (v3 a) := onTriangle_bounds h a

/-- A cell in the computed box is among those that are filled or, if it is outside the map, reported, if its centre is near. -/
theorem visits_box (h : RasterFine r u η s N root3) (hT : ∀ a, |t a| ≤ T) {tri : ℤ × ℤ × ℤ} {v1 v2 v3 : Fin 3 → ℝ}
    (hc : corners vertices tri = some (v1, v2, v3)) (h1 : WithinCells N s t v1) (h2 : WithinCells N s t v2)
    (h3 : WithinCells N s t v3) (hn : NormalFits r u η s (roundedNormal r v1 v2 v3)) {D : ℝ} (hD : SidesAtMost D v1 v2 v3)
    {p : Fin 3 → ℝ} (hp : OnTriangle v1 v2 v3 p) {c : ZIdx} (hbox : InBoxUpTo (8 * (u * (N * s))) s t ![c.1, c.2.1, c.2.2] p)
    (hl : ∀ a, ⌊r (r (min (min (v1 a) (v2 a)) (v3 a) - t a) * r (1 / s))⌋ ≤ (![c.1, c.2.1, c.2.2] : IVec) a ∧
      (![c.1, c.2.1, c.2.2] : IVec) a ≤ ⌊r (r (max (max (v1 a) (v2 a)) (v3 a) - t a) * r (1 / s))⌋)
    (hd : dist3 p (worldCentre s t ![c.1, c.2.1, c.2.2]) + D ≤ Real.sqrt 3 / 2 * s - u * (4 * T + 112 * (N * s))) :
    ∃ acts, flTriangleActs (rastOver (roundedArith r) root3) (shiftedMap r dims s t) enforce vertices tri = some acts ∧
      ∀ x ∈ actOn dims enforce c, x ∈ acts := by
  have s0 := h.s0
  have u0 := h.u0
  have N1 := h.one_le
  have T0 : 0 ≤ T := (abs_nonneg _).trans (hT 0)
  have uNs : 0 ≤ u * (N * s) := by positivity
  have hcell : ∀ a, |((![c.1, c.2.1, c.2.2] : IVec) a : ℝ)| + 1 ≤ N := by
    intro a
    obtain ⟨b1, b2⟩ := on_triangle_between hp a
    have hlo : -((N - 3) * s) ≤ p a - t a := by
      have k : -((N - 3) * s) + t a ≤ min (min (v1 a) (v2 a)) (v3 a) :=
        le_min (le_min (by linarith [(abs_le.1 (h1 a)).1]) (by linarith [(abs_le.1 (h2 a)).1])) (by linarith [(abs_le.1 (h3 a)).1])
      linarith
    have hhi : p a - t a ≤ (N - 3) * s := by
      have k : max (max (v1 a) (v2 a)) (v3 a) ≤ (N - 3) * s + t a :=
        max_le (max_le (by linarith [(abs_le.1 (h1 a)).2]) (by linarith [(abs_le.1 (h2 a)).2])) (by linarith [(abs_le.1 (h3 a)).2])
      linarith
    obtain ⟨k1, k2⟩ := hbox a
    obtain ⟨x, hx⟩ : ∃ x : ℝ, x = ((![c.1, c.2.1, c.2.2] : IVec) a : ℝ) := ⟨_, rfl⟩
    rw [← hx] at k1 k2 ⊢
    have k8 : 8 * (u * (N * s)) ≤ s := by
      have := mul_le_mul_of_nonneg_right h.small s0.le
      linarith
    have j1 : x ≤ N - 2 := le_of_mul_le_mul_right (by linarith : x * s ≤ (N - 2) * s) s0
    have j2 : -(N - 2) ≤ x + 1 := le_of_mul_le_mul_right (by linarith : -(N - 2) * s ≤ (x + 1) * s) s0
    have : |x| ≤ N - 1 := abs_le.2 ⟨by linarith, by linarith⟩
    linarith
  obtain ⟨lo, hlo⟩ : ∃ lo, flRastIndex (rastOver (roundedArith r) root3) (shiftedMap r dims s t)
      (fun a => flMin3 (rastOver (roundedArith r) root3) (v1 a) (v2 a) (v3 a)) = some lo :=
    ⟨fun a => _, axes3_some.mpr fun a => rfl⟩
  obtain ⟨hi, hhi⟩ : ∃ hi, flRastIndex (rastOver (roundedArith r) root3) (shiftedMap r dims s t)
      (fun a => flMax3 (rastOver (roundedArith r) root3) (v1 a) (v2 a) (v3 a)) = some hi :=
    ⟨fun a => _, axes3_some.mpr fun a => rfl⟩
  refine ⟨_, (flTriangleActs_some hc).mpr ⟨lo, hi, hlo, hhi, rfl⟩, fun x hx => ?_⟩
  refine List.mem_flatMap.mpr ⟨c, List.mem_filter.mpr ⟨?_, ?_⟩, hx⟩
  · have hl' : ∀ a, lo a ≤ (![c.1, c.2.1, c.2.2] : IVec) a ∧ (![c.1, c.2.1, c.2.2] : IVec) a ≤ hi a := by
      intro a
      have el := axes3_some.mp hlo a
      have eh := axes3_some.mp hhi a
      simp only [flMin3_rounded, flMax3_rounded] at el eh
      have el' : ⌊r (r (min (min (v1 a) (v2 a)) (v3 a) - t a) * r (1 / s))⌋ = lo a := Option.some.inj el
      have eh' : ⌊r (r (max (max (v1 a) (v2 a)) (v3 a) - t a) * r (1 / s))⌋ = hi a := Option.some.inj eh
      rw [← el', ← eh']
      exact hl a
    exact mem_indexBox.mpr ⟨hl' 0, hl' 1, hl' 2⟩
  · have hB : ∀ {v : Fin 3 → ℝ}, WithinCells N s t v → ∀ i, |v i| ≤ T + N * s := by
      intro v hv i
      have k := abs_add_le (v i - t i) (t i)
      rw [sub_add_cancel] at k
      have e : (N - 3) * s = N * s - 3 * s := by ring
      linarith [hv i, hT i]
    refine h.hit (hB h1) (hB h2) (hB h3) hD hn hp ?_
    have hq := dist3_le_two (h.centre (dims := dims) hT hcell)
    have t1 := dist3_triangle p (worldCentre s t ![c.1, c.2.1, c.2.2])
      (flRastCentre (rastOver (roundedArith r) root3) (shiftedMap r dims s t) c)
    rw [dist3_comm (worldCentre s t ![c.1, c.2.1, c.2.2])] at t1
    have us : u * s ≤ u * (N * s) := mul_le_mul_of_nonneg_left (le_mul_of_one_le_left s0.le N1) u0
    have fin : ∀ x y z : ℝ, x ≤ y + z → z ≤ 2 * (9 * (u * (N * s)) + u * T) →
        y + D ≤ Real.sqrt 3 / 2 * s - u * (4 * T + 112 * (N * s)) → x + D ≤ Real.sqrt 3 / 2 * s - u * (2 * (T + N * s) + 90 * s) := by
      intro x y z hx hz hy
      linarith
    exact fin _ _ _ t1 hq hd

/-- The same for a cell that holds a point of the triangle. -/
theorem visits (h : RasterFine r u η s N root3) (hT : ∀ a, |t a| ≤ T) {tri : ℤ × ℤ × ℤ} {v1 v2 v3 : Fin 3 → ℝ}
    (hc : corners vertices tri = some (v1, v2, v3)) (h1 : WithinCells N s t v1) (h2 : WithinCells N s t v2)
    (h3 : WithinCells N s t v3) (hn : NormalFits r u η s (roundedNormal r v1 v2 v3)) {D : ℝ} (hD : SidesAtMost D v1 v2 v3)
    {p : Fin 3 → ℝ} (hp : OnTriangle v1 v2 v3 p) {c : ZIdx} (hbox : DeepInBox (8 * (u * (N * s))) s t ![c.1, c.2.1, c.2.2] p)
    (hd : dist3 p (worldCentre s t ![c.1, c.2.1, c.2.2]) + D ≤ Real.sqrt 3 / 2 * s - u * (4 * T + 112 * (N * s))) :
    ∃ acts, flTriangleActs (rastOver (roundedArith r) root3) (shiftedMap r dims s t) enforce vertices tri = some acts ∧
      ∀ x ∈ actOn dims enforce c, x ∈ acts := by
  have uNs : 0 ≤ u * (N * s) := mul_nonneg h.u0 (mul_nonneg (by linarith [h.one_le]) h.s0.le)
  refine visits_box h hT hc h1 h2 h3 hn hD hp (fun a => ⟨?_, ?_⟩) (fun a => ?_) hd
  · linarith [(hbox a).1]
  · linarith [(hbox a).2]
  · obtain ⟨w1, w2⟩ := within_min h.s0.le h1 h2 h3 a
    obtain ⟨b1, b2⟩ := on_triangle_between hp a
    constructor
    · rw [← Int.lt_add_one_iff, Int.floor_lt]
      have := index_low h w1 b1 (hbox a).2
      push_cast
      exact this
    · rw [Int.le_floor]
      exact index_high h w2 b2 (hbox a).1

/-- Every point of a triangle is, up to rounding, in some cell of the computed box. -/
theorem some_cell (h : RasterFine r u η s N root3) (hmono : ∀ x y, x ≤ y → r x ≤ r y) {v1 v2 v3 : Fin 3 → ℝ} (h1 : WithinCells N s t v1)
    (h2 : WithinCells N s t v2) (h3 : WithinCells N s t v3) {p : Fin 3 → ℝ} (hp : OnTriangle v1 v2 v3 p) (a : Fin 3) :
    ∃ c : ℤ, ((c : ℝ) * s - 8 * (u * (N * s)) ≤ p a - t a ∧ p a - t a ≤ ((c : ℝ) + 1) * s + 8 * (u * (N * s))) ∧
      ⌊r (r (min (min (v1 a) (v2 a)) (v3 a) - t a) * r (1 / s))⌋ ≤ c ∧
      c ≤ ⌊r (r (max (max (v1 a) (v2 a)) (v3 a) - t a) * r (1 / s))⌋ := by
  have s0 := h.s0
  have uN : 0 < u * N := mul_pos h.u_pos (by linarith [h.one_le])
  have uNs : 0 ≤ u * (N * s) := by nlinarith
  obtain ⟨w1, w2⟩ := within_min h.s0.le h1 h2 h3 a
  obtain ⟨b1, b2⟩ := on_triangle_between hp a
  have k1 := (abs_le.1 (h.index w1)).2
  have k2 := (abs_le.1 (h.index w2)).1
  have hlt : (min (min (v1 a) (v2 a)) (v3 a) - t a) / s ≤ (p a - t a) / s := by gcongr
  have hht : (p a - t a) / s ≤ (max (max (v1 a) (v2 a)) (v3 a) - t a) / s := by gcongr
  have inv0 : 0 ≤ r (1 / s) := by
    have e := (abs_le.1 (h.err (1 / s))).1
    rw [abs_of_pos (by positivity)] at e
    have e1 : η ≤ u * (1 / s) := by rw [mul_one_div, le_div_iff₀ s0]; exact h.eta_inv
    have e2 : u * (1 / s) ≤ 1 / 1000 * (1 / s) := mul_le_mul_of_nonneg_right h.u_le (by positivity)
    have e3 : 0 < 1 / s := by positivity
    linarith
  have hAB : r (r (min (min (v1 a) (v2 a)) (v3 a) - t a) * r (1 / s)) ≤ r (r (max (max (v1 a) (v2 a)) (v3 a) - t a) * r (1 / s)) :=
    hmono _ _ (mul_le_mul_of_nonneg_right (hmono _ _ (by linarith)) inv0)
  have hle : r (r (min (min (v1 a) (v2 a)) (v3 a) - t a) * r (1 / s)) ≤ (p a - t a) / s + 8 * (u * N) := by linarith
  have hge : (p a - t a) / s ≤ r (r (max (max (v1 a) (v2 a)) (v3 a) - t a) * r (1 / s)) + 8 * (u * N) := by linarith
  have eX : p a - t a = (p a - t a) / s * s := by field_simp
  have e8 : 8 * (u * (N * s)) = 8 * (u * N) * s := by ring
  rw [eX, e8]
  generalize r (r (min (min (v1 a) (v2 a)) (v3 a) - t a) * r (1 / s)) = A at *
  generalize r (r (max (max (v1 a) (v2 a)) (v3 a) - t a) * r (1 / s)) = B at *
  generalize (p a - t a) / s = X at *
  have lohi : ⌊A⌋ ≤ ⌊B⌋ := Int.floor_mono hAB
  have fA := Int.floor_le A
  have fB := Int.lt_floor_add_one B
  have gX := Int.floor_le X
  have gX' := Int.lt_floor_add_one X
  have scale : ∀ c : ℤ, (c : ℝ) ≤ X + 8 * (u * N) → X ≤ c + 1 + 8 * (u * N) →
      (c : ℝ) * s - 8 * (u * N) * s ≤ X * s ∧ X * s ≤ ((c : ℝ) + 1) * s + 8 * (u * N) * s := by
    intro c h1 h2
    have k1 := mul_le_mul_of_nonneg_right h1 s0.le
    have k2 := mul_le_mul_of_nonneg_right h2 s0.le
    constructor <;> linarith
  rcases lt_or_ge ⌊X⌋ ⌊A⌋ with c1 | c1
  · refine ⟨⌊A⌋, scale _ (by linarith) ?_, le_rfl, lohi⟩
    have : ((⌊X⌋ + 1 : ℤ) : ℝ) ≤ ⌊A⌋ := by exact_mod_cast c1
    push_cast at this
    linarith
  · rcases le_or_gt ⌊X⌋ ⌊B⌋ with c2 | c2
    · exact ⟨⌊X⌋, scale _ (by linarith) (by linarith), c1, c2⟩
    · refine ⟨⌊B⌋, scale _ ?_ (by linarith), lohi, le_rfl⟩
      have : ((⌊B⌋ : ℤ) : ℝ) ≤ ⌊X⌋ := by exact_mod_cast c2.le
      linarith

/-- C80, coverage: a cell of the map is filled if some triangle whose sides are at most `D` has a point in it (a little away from
its faces) that is nearer to the centre than half the diagonal by `D` and the rounding errors.  Nothing is assumed about the
shape of the triangle. -/
theorem C80_small_triangles_fill (h : RasterFine r u η s N root3) (hT : ∀ a, |t a| ≤ T)
    (hrun : FlMeshRuns (rastOver (roundedArith r) root3) (shiftedMap r dims s t) enforce vertices triangles occ false occ')
    {tri : ℤ × ℤ × ℤ} (htri : tri ∈ triangles) {v1 v2 v3 : Fin 3 → ℝ} (hc : corners vertices tri = some (v1, v2, v3))
    (h1 : WithinCells N s t v1) (h2 : WithinCells N s t v2) (h3 : WithinCells N s t v3)
    (hn : NormalFits r u η s (roundedNormal r v1 v2 v3)) {D : ℝ} (hD : SidesAtMost D v1 v2 v3) {p : Fin 3 → ℝ}
    (hp : OnTriangle v1 v2 v3 p) {j : Idx} (hj : dims.In j)
    (hbox : DeepInBox (8 * (u * (N * s))) s t ![(j.1 : ℤ), (j.2.1 : ℤ), (j.2.2 : ℤ)] p)
    (hd : dist3 p (worldCentre s t ![(j.1 : ℤ), (j.2.1 : ℤ), (j.2.2 : ℤ)]) + D ≤ Real.sqrt 3 / 2 * s - u * (4 * T + 112 * (N * s))) :
    occ' j = .fin 1 := by
  obtain ⟨acts, hacts, hmem⟩ := visits (dims := dims) (enforce := enforce) h hT hc h1 h2 h3 hn hD hp (c := toZ j) hbox hd
  exact (flMeshRuns_spec rfl hrun).2.1 rfl j ⟨tri, htri, acts, hacts, hmem _ (actOn_fill.mpr ⟨hj, rfl⟩)⟩

theorem enforced_cell (hrun : FlMeshRuns (rastOver (roundedArith r) root3) (shiftedMap r dims s t) true vertices triangles occ false occ')
    {tri : ℤ × ℤ × ℤ} (htri : tri ∈ triangles) {c : Fin 3 → ℤ}
    (hv : ∃ acts, flTriangleActs (rastOver (roundedArith r) root3) (shiftedMap r dims s t) true vertices tri = some acts ∧
      ∀ x ∈ actOn dims true (c 0, c 1, c 2), x ∈ acts) :
    ∃ j : Idx, dims.In j ∧ c = ![(j.1 : ℤ), (j.2.1 : ℤ), (j.2.2 : ℤ)] ∧ occ' j = .fin 1 := by
  have e : c = ![c 0, c 1, c 2] := by
    funext a
    fin_cases a <;> rfl
  obtain ⟨acts, hacts, hmem⟩ := hv
  have spec := flMeshRuns_spec rfl hrun
  by_cases hin : checkInBounds dims (c 0, c 1, c 2) = true
  · obtain ⟨j, hj, ej⟩ := checkInBounds_iff.mp hin
    refine ⟨j, hj, ?_, spec.2.1 rfl j ⟨tri, htri, acts, hacts, hmem _ (actOn_fill.mpr ⟨hj, ej⟩)⟩⟩
    rw [e]
    obtain ⟨j0, j1, j2⟩ := j
    simp only [toZ, Prod.mk.injEq] at ej
    rw [ej.1, ej.2.1, ej.2.2]
  · have hthrow := hmem .throw (actOn_throw.mpr ⟨rfl, by simpa using hin⟩)
    exact absurd (spec.1.mpr ⟨tri, htri, acts, hacts, hthrow⟩) (by simp)

/-- C80, with enforcement: if the call returns, such a cell is in the map and filled; a cell outside makes it throw. -/
theorem C80_enforced (h : RasterFine r u η s N root3) (hT : ∀ a, |t a| ≤ T)
    (hrun : FlMeshRuns (rastOver (roundedArith r) root3) (shiftedMap r dims s t) true vertices triangles occ false occ')
    {tri : ℤ × ℤ × ℤ} (htri : tri ∈ triangles) {v1 v2 v3 : Fin 3 → ℝ} (hc : corners vertices tri = some (v1, v2, v3))
    (h1 : WithinCells N s t v1) (h2 : WithinCells N s t v2) (h3 : WithinCells N s t v3)
    (hn : NormalFits r u η s (roundedNormal r v1 v2 v3)) {D : ℝ} (hD : SidesAtMost D v1 v2 v3) {p : Fin 3 → ℝ}
    (hp : OnTriangle v1 v2 v3 p) {c : Fin 3 → ℤ} (hbox : DeepInBox (8 * (u * (N * s))) s t c p)
    (hd : dist3 p (worldCentre s t c) + D ≤ Real.sqrt 3 / 2 * s - u * (4 * T + 112 * (N * s))) :
    ∃ j : Idx, dims.In j ∧ c = ![(j.1 : ℤ), (j.2.1 : ℤ), (j.2.2 : ℤ)] ∧ occ' j = .fin 1 := by
  have e : c = ![c 0, c 1, c 2] := by
    funext a
    fin_cases a <;> rfl
  have hbox' : DeepInBox (8 * (u * (N * s))) s t ![c 0, c 1, c 2] p := e ▸ hbox
  have hd' : dist3 p (worldCentre s t ![c 0, c 1, c 2]) + D ≤ Real.sqrt 3 / 2 * s - u * (4 * T + 112 * (N * s)) := e ▸ hd
  exact enforced_cell hrun htri (visits h hT hc h1 h2 h3 hn hD hp (c := (c 0, c 1, c 2)) hbox' hd')

/-- C80, with enforcement, at the faces of cells too: every point of the surface is, up to rounding, in a cell that is filled if
its centre is near enough. -/
theorem C80_enforced_somewhere (h : RasterFine r u η s N root3) (hmono : ∀ x y, x ≤ y → r x ≤ r y) (hT : ∀ a, |t a| ≤ T)
    (hrun : FlMeshRuns (rastOver (roundedArith r) root3) (shiftedMap r dims s t) true vertices triangles occ false occ')
    {tri : ℤ × ℤ × ℤ} (htri : tri ∈ triangles) {v1 v2 v3 : Fin 3 → ℝ} (hc : corners vertices tri = some (v1, v2, v3))
    (h1 : WithinCells N s t v1) (h2 : WithinCells N s t v2) (h3 : WithinCells N s t v3)
    (hn : NormalFits r u η s (roundedNormal r v1 v2 v3)) {D : ℝ} (hD : SidesAtMost D v1 v2 v3) {p : Fin 3 → ℝ}
    (hp : OnTriangle v1 v2 v3 p) : ∃ c : Fin 3 → ℤ, InBoxUpTo (8 * (u * (N * s))) s t c p ∧
      (dist3 p (worldCentre s t c) + D ≤ Real.sqrt 3 / 2 * s - u * (4 * T + 112 * (N * s)) →
        ∃ j : Idx, dims.In j ∧ c = ![(j.1 : ℤ), (j.2.1 : ℤ), (j.2.2 : ℤ)] ∧ occ' j = .fin 1) := by
  choose c hc1 hc2 using fun a => some_cell h hmono h1 h2 h3 hp a
  have e : c = ![c 0, c 1, c 2] := by
    funext a
    fin_cases a <;> rfl
  refine ⟨c, hc1, fun hd => ?_⟩
  have hbox' : InBoxUpTo (8 * (u * (N * s))) s t ![c 0, c 1, c 2] p := e ▸ hc1
  have hd' : dist3 p (worldCentre s t ![c 0, c 1, c 2]) + D ≤ Real.sqrt 3 / 2 * s - u * (4 * T + 112 * (N * s)) := e ▸ hd
  exact enforced_cell hrun htri (visits_box h hT hc h1 h2 h3 hn hD hp (c := (c 0, c 1, c 2)) hbox' (e ▸ hc2) hd')

theorem corners_mem {F : Type} {vertices : List (Fin 3 → F)} {tri : ℤ × ℤ × ℤ} {v1 v2 v3 : Fin 3 → F}
    (hc : corners vertices tri = some (v1, v2, v3)) : v1 ∈ vertices ∧ v2 ∈ vertices ∧ v3 ∈ vertices := by
  have one : ∀ {k : ℤ} {v : Fin 3 → F}, vertexAt vertices k = some v → v ∈ vertices := by
    intro k v hk
    unfold vertexAt at hk
    split_ifs at hk
    exact List.mem_of_getElem? hk
  unfold corners at hc
  obtain ⟨x, hx, hc⟩ := Option.bind_eq_some_iff.mp hc
  obtain ⟨y, hy, hc⟩ := Option.bind_eq_some_iff.mp hc
  obtain ⟨z, hz, hc⟩ := Option.map_eq_some_iff.mp hc
  cases hc
  exact ⟨one hx, one hy, one hz⟩

/-- C80, nothing else: a cell that changes is within rounding of the box of some triangle. -/
theorem C80_only_near (h : RasterFine r u η s N root3) (hw : ∀ v ∈ vertices, WithinCells N s t v) {threw : Bool}
    (hrun : FlMeshRuns (rastOver (roundedArith r) root3) (shiftedMap r dims s t) enforce vertices triangles occ threw occ')
    {j : Idx} (hj : occ' j ≠ occ j) : ∃ tri ∈ triangles, ∃ v1 v2 v3, corners vertices tri = some (v1, v2, v3) ∧
      ∀ a, (∃ v, (v = v1 ∨ v = v2 ∨ v = v3) ∧
          v a - t a ≤ ((![(j.1 : ℤ), (j.2.1 : ℤ), (j.2.2 : ℤ)] : IVec) a + 1) * s + 8 * (u * (N * s))) ∧
        ∃ v, (v = v1 ∨ v = v2 ∨ v = v3) ∧
          ((![(j.1 : ℤ), (j.2.1 : ℤ), (j.2.2 : ℤ)] : IVec) a : ℝ) * s - 8 * (u * (N * s)) ≤ v a - t a := by
  obtain ⟨tri, htri, v1, v2, v3, hc, hbox⟩ := C69_only_in_the_box hrun hj
  refine ⟨tri, htri, v1, v2, v3, hc, fun a => ?_⟩
  obtain ⟨m1, m2, m3⟩ := corners_mem hc
  obtain ⟨w1, w2⟩ := within_min h.s0.le (hw v1 m1) (hw v2 m2) (hw v3 m3) a
  obtain ⟨lo, hi, hlo, hhi, b1, b2⟩ := hbox a
  simp only [flMin3_rounded, flMax3_rounded] at hlo hhi
  have el' : ⌊r (r (min (min (v1 a) (v2 a)) (v3 a) - t a) * r (1 / s))⌋ = lo := Option.some.inj hlo
  have eh' : ⌊r (r (max (max (v1 a) (v2 a)) (v3 a) - t a) * r (1 / s))⌋ = hi := Option.some.inj hhi
  have s0 := h.s0
  have uN0 : 0 < u * N := mul_pos h.u_pos (by linarith [h.one_le])
  obtain ⟨c, hcc⟩ : ∃ c : ℤ, c = (![(j.1 : ℤ), (j.2.1 : ℤ), (j.2.2 : ℤ)] : IVec) a := ⟨_, rfl⟩
  have hcc' : (![(j.1 : ℤ), (j.2.1 : ℤ), (j.2.2 : ℤ)] : IVec) a = c := hcc.symm
  rw [hcc']
  rw [hcc'] at b1 b2
  constructor
  · have h1 : min (min (v1 a) (v2 a)) (v3 a) - t a ≤ (c + 1) * s + 8 * (u * (N * s)) := by
      have k1 := (abs_le.1 (h.index w1)).1
      have k2 : r (r (min (min (v1 a) (v2 a)) (v3 a) - t a) * r (1 / s)) < c + 1 := by
        rw [← el'] at b1
        have := Int.floor_lt.1 (Int.lt_add_one_iff.2 b1)
        push_cast at this
        exact this
      have k3 : (min (min (v1 a) (v2 a)) (v3 a) - t a) / s ≤ c + 1 + 8 * (u * N) := by linarith
      rw [div_le_iff₀ s0] at k3
      linarith
    rcases min_choice (min (v1 a) (v2 a)) (v3 a) with e | e
    · rw [e] at h1
      rcases min_choice (v1 a) (v2 a) with e | e <;> rw [e] at h1
      exacts [⟨v1, Or.inl rfl, h1⟩, ⟨v2, Or.inr (Or.inl rfl), h1⟩]
    · rw [e] at h1
      exact ⟨v3, Or.inr (Or.inr rfl), h1⟩
  · have h1 : (c : ℝ) * s - 8 * (u * (N * s)) ≤ max (max (v1 a) (v2 a)) (v3 a) - t a := by
      have k1 := (abs_le.1 (h.index w2)).2
      have k2 : (c : ℝ) ≤ r (r (max (max (v1 a) (v2 a)) (v3 a) - t a) * r (1 / s)) := by
        rw [← eh'] at b2
        exact Int.le_floor.1 b2
      have k3 : c - 8 * (u * N) ≤ (max (max (v1 a) (v2 a)) (v3 a) - t a) / s := by linarith
      rw [le_div_iff₀ s0] at k3
      linarith
    rcases max_choice (max (v1 a) (v2 a)) (v3 a) with e | e
    · rw [e] at h1
      rcases max_choice (v1 a) (v2 a) with e | e <;> rw [e] at h1
      exacts [⟨v1, Or.inl rfl, h1⟩, ⟨v2, Or.inr (Or.inl rfl), h1⟩]
    · rw [e] at h1
      exact ⟨v3, Or.inr (Or.inr rfl), h1⟩

/-- C80, nothing else, for small triangles: every point of some triangle is, on each axis, within half a cell and the longest
side of the centre of a cell that changes. -/
theorem C80_small_triangles_only_near (h : RasterFine r u η s N root3) (hw : ∀ v ∈ vertices, WithinCells N s t v) {D : ℝ}
    (hD : ∀ tri ∈ triangles, ∀ v1 v2 v3, corners vertices tri = some (v1, v2, v3) → SidesAtMost D v1 v2 v3) {threw : Bool}
    (hrun : FlMeshRuns (rastOver (roundedArith r) root3) (shiftedMap r dims s t) enforce vertices triangles occ threw occ')
    {j : Idx} (hj : occ' j ≠ occ j) : ∃ tri ∈ triangles, ∃ v1 v2 v3, corners vertices tri = some (v1, v2, v3) ∧
      ∀ p, OnTriangle v1 v2 v3 p → ∀ a,
        |p a - worldCentre s t ![(j.1 : ℤ), (j.2.1 : ℤ), (j.2.2 : ℤ)] a| ≤ s / 2 + D + 8 * (u * (N * s)) := by
  obtain ⟨tri, htri, v1, v2, v3, hc, hnear⟩ := C80_only_near h hw hrun hj
  refine ⟨tri, htri, v1, v2, v3, hc, fun p hp a => ?_⟩
  have hDt := hD tri htri v1 v2 v3 hc
  have mem : ∀ {v : Fin 3 → ℝ}, (v = v1 ∨ v = v2 ∨ v = v3) → |p a - v a| ≤ D := by
    intro v hv
    have hv' : OnTriangle v1 v2 v3 v := by
      rcases hv with rfl | rfl | rfl
      · exact ⟨1, 0, 0, zero_le_one, le_rfl, le_rfl, by norm_num, fun a => by ring⟩
      · exact ⟨0, 1, 0, le_rfl, zero_le_one, le_rfl, by norm_num, fun a => by ring⟩
      · exact ⟨0, 0, 1, le_rfl, le_rfl, zero_le_one, by norm_num, fun a => by ring⟩
    exact (abs_le_dist3 p v a).trans (dist3_on_triangle hDt hv' hp)
  obtain ⟨⟨x, hx, hx1⟩, ⟨y, hy, hy1⟩⟩ := hnear a
  have k1 := abs_le.1 (mem hx)
  have k2 := abs_le.1 (mem hy)
  have e : worldCentre s t ![(j.1 : ℤ), (j.2.1 : ℤ), (j.2.2 : ℤ)] a =
      ((![(j.1 : ℤ), (j.2.1 : ℤ), (j.2.2 : ℤ)] : IVec) a : ℝ) * s + s / 2 + t a := rfl
  rw [e, abs_le]
  constructor <;> linarith

end

/-! ### `double` -/

/-- `std::sqrt(3.0)`. -/
noncomputable def root3Double : ℝ := roundDouble (17320508075688772935 / 10 ^ 19)

theorem root3Double_err : |root3Double - Real.sqrt 3| ≤ 2 * 2 ^ (-53 : ℤ) := by
  have h := double_err.err (17320508075688772935 / 10 ^ 19)
  rw [abs_of_pos (a := (17320508075688772935 / 10 ^ 19 : ℝ)) (by positivity)] at h
  have hη : (2 : ℝ) ^ (-1075 : ℤ) ≤ 1 / 10 ^ 2 * 2 ^ (-53 : ℤ) := by
    rw [show (-1075 : ℤ) = -1022 + -53 by norm_num, zpow_add₀ (by norm_num)]
    refine mul_le_mul_of_nonneg_right ?_ (by positivity)
    calc (2 : ℝ) ^ (-1022 : ℤ) ≤ 2 ^ (-7 : ℤ) := zpow_le_zpow_right₀ (by norm_num) (by norm_num)
      _ ≤ 1 / 10 ^ 2 := by norm_num
  have h1 : |17320508075688772935 / 10 ^ 19 - Real.sqrt 3| ≤ 1 / 10 ^ 18 := by
    rw [abs_le]
    have a : Real.sqrt 3 ≤ 17320508075688772936 / 10 ^ 19 := Real.sqrt_le_iff.2 ⟨by norm_num, by norm_num⟩
    have b : 17320508075688772935 / 10 ^ 19 ≤ Real.sqrt 3 := Real.le_sqrt_of_sq_le (by norm_num)
    constructor <;> linarith
  have e53 : (2 : ℝ) ^ (-53 : ℤ) = 1 / 2 ^ 53 := by rw [zpow_neg, one_div]; norm_cast
  rw [e53] at h hη ⊢
  generalize (2 : ℝ) ^ (-1075 : ℤ) = η at h hη
  have t := abs_sub_le root3Double (17320508075688772935 / 10 ^ 19) (Real.sqrt 3)
  have h' : |root3Double - 17320508075688772935 / 10 ^ 19| ≤ 1 / 2 ^ 53 * (17320508075688772935 / 10 ^ 19) + η := h
  have k : (1 : ℝ) / 2 ^ 53 * (17320508075688772935 / 10 ^ 19) + 1 / 10 ^ 2 * (1 / 2 ^ 53) + 1 / 10 ^ 18 ≤ 2 * (1 / 2 ^ 53) := by norm_num
  linarith

theorem raster_double {s N : ℝ} (hs : (2 : ℝ) ^ (-100 : ℤ) ≤ s) (hs' : s ≤ 2 ^ (100 : ℤ)) (h1 : 1 ≤ N) (hN : N ≤ 2 ^ 43) :
    RasterFine roundDouble (2 ^ (-53 : ℤ)) (2 ^ (-1075 : ℤ)) s N root3Double where
  toRoundErr := double_err
  u_pos := by positivity
  s0 := lt_of_lt_of_le (by positivity) hs
  one_le := h1
  small := by
    calc (2 : ℝ) ^ (-53 : ℤ) * N ≤ 2 ^ (-53 : ℤ) * 2 ^ 43 := by gcongr
      _ ≤ 1 / 1000 := by norm_num
  eta := zpow_le_zpow_right₀ (by norm_num) (by norm_num)
  eta_s := by
    calc (2 : ℝ) ^ (-1075 : ℤ) ≤ 2 ^ (-53 + -100 : ℤ) := zpow_le_zpow_right₀ (by norm_num) (by norm_num)
      _ = 2 ^ (-53 : ℤ) * 2 ^ (-100 : ℤ) := zpow_add₀ (by norm_num) _ _
      _ ≤ _ := by gcongr
  eta_s2 := by
    calc (2 : ℝ) ^ (-1075 : ℤ) ≤ 2 ^ (-53 + -200 : ℤ) := zpow_le_zpow_right₀ (by norm_num) (by norm_num)
      _ = 2 ^ (-53 : ℤ) * (2 ^ (-100 : ℤ)) ^ 2 := by
        rw [zpow_add₀ (by norm_num), pow_two, ← zpow_add₀ (by norm_num)]; norm_num
      _ ≤ _ := by gcongr
  eta_inv := by
    calc (2 : ℝ) ^ (-1075 : ℤ) * s ≤ 2 ^ (-1075 : ℤ) * 2 ^ (100 : ℤ) := by gcongr
      _ = 2 ^ (-975 : ℤ) := by rw [← zpow_add₀ (by norm_num)]; norm_num
      _ ≤ 2 ^ (-53 : ℤ) := zpow_le_zpow_right₀ (by norm_num) (by norm_num)
  root := root3Double_err

/-- The computed square of the normal is zero, or neither underflows nor overflows. -/
def Spec.NormalInRange (v1 v2 v3 : Fin 3 → ℝ) : Prop :=
  rdot roundDouble (roundedNormal roundDouble v1 v2 v3) (roundedNormal roundDouble v1 v2 v3) ≤ 0 ∨
    ((2 : ℝ) ^ (-900 : ℤ) ≤ rdot roundDouble (roundedNormal roundDouble v1 v2 v3) (roundedNormal roundDouble v1 v2 v3) ∧
      rdot roundDouble (roundedNormal roundDouble v1 v2 v3) (roundedNormal roundDouble v1 v2 v3) ≤ 2 ^ (900 : ℤ))

theorem normal_in_range {s : ℝ} (hs : (2 : ℝ) ^ (-100 : ℤ) ≤ s) {v1 v2 v3 : Fin 3 → ℝ} (h : NormalInRange v1 v2 v3) :
    NormalFits roundDouble (2 ^ (-53 : ℤ)) (2 ^ (-1075 : ℤ)) s (roundedNormal roundDouble v1 v2 v3) := by
  rcases h with h | ⟨h1, h2⟩
  · exact Or.inl h
  · right
    have hself := rdot_self double_err (by norm_num) (roundedNormal roundDouble v1 v2 v3)
    have N0 := len3_nonneg (roundedNormal roundDouble v1 v2 v3)
    generalize rdot roundDouble (roundedNormal roundDouble v1 v2 v3) (roundedNormal roundDouble v1 v2 v3) = Q at *
    generalize len3 (roundedNormal roundDouble v1 v2 v3) = L at *
    have hself1 := (abs_le.1 hself).1
    have hself2 := (abs_le.1 hself).2
    have Q0 : 0 < Q := lt_of_lt_of_le (by positivity) h1
    have k1 : 6 * (2 : ℝ) ^ (-1075 : ℤ) ≤ 2 ^ (-53 : ℤ) * Q := by
      calc 6 * (2 : ℝ) ^ (-1075 : ℤ) ≤ 2 ^ (3 : ℤ) * 2 ^ (-1075 : ℤ) := by gcongr; norm_num
        _ = 2 ^ (-1072 : ℤ) := by rw [← zpow_add₀ (by norm_num)]; norm_num
        _ ≤ 2 ^ (-53 + -900 : ℤ) := zpow_le_zpow_right₀ (by norm_num) (by norm_num)
        _ = 2 ^ (-53 : ℤ) * 2 ^ (-900 : ℤ) := zpow_add₀ (by norm_num) _ _
        _ ≤ _ := by gcongr
    have u53 : (2 : ℝ) ^ (-53 : ℤ) ≤ 1 / 1000 := by norm_num
    have u0 : (0 : ℝ) < 2 ^ (-53 : ℤ) := by positivity
    have hL2 : L ^ 2 ≤ 2 * Q ∧ Q ≤ 2 * L ^ 2 := by
      have b1 : (2 : ℝ) ^ (-53 : ℤ) * L ^ 2 ≤ 1 / 1000 * L ^ 2 := mul_le_mul_of_nonneg_right u53 (sq_nonneg L)
      have b2 : (2 : ℝ) ^ (-53 : ℤ) * Q ≤ 1 / 1000 * Q := mul_le_mul_of_nonneg_right u53 Q0.le
      generalize (2 : ℝ) ^ (-53 : ℤ) = u at *
      generalize (2 : ℝ) ^ (-1075 : ℤ) = η at *
      rw [mul_assoc] at hself1 hself2
      constructor <;> linarith
    obtain ⟨hL2, hL2'⟩ := hL2
    have hLup : L ≤ 2 ^ (451 : ℤ) := by
      refine abs_le_of_sq_le_sq' ?_ (by positivity) |>.2
      calc L ^ 2 ≤ 2 * 2 ^ (900 : ℤ) := by linarith
        _ = 2 ^ (901 : ℤ) := by
          rw [show (901 : ℤ) = 1 + 900 by norm_num, zpow_add₀ (by norm_num), zpow_one]
        _ ≤ 2 ^ (451 + 451 : ℤ) := zpow_le_zpow_right₀ (by norm_num) (by norm_num)
        _ = (2 ^ (451 : ℤ)) ^ 2 := by rw [zpow_add₀ (by norm_num), pow_two]
    have hLlow : (2 : ℝ) ^ (-451 : ℤ) ≤ L := by
      refine abs_le_of_sq_le_sq' ?_ N0 |>.2
      have : (2 : ℝ) * (2 ^ (-451 : ℤ)) ^ 2 ≤ 2 ^ (-900 : ℤ) := by
        have e1 : (2 : ℝ) ^ (-900 : ℤ) = 2 * 2 ^ (-901 : ℤ) := by
          rw [show (-900 : ℤ) = 1 + -901 by norm_num, zpow_add₀ (by norm_num) 1 (-901), zpow_one]
        rw [pow_two, ← zpow_add₀ (by norm_num), e1]
        gcongr
        · norm_num
        · norm_num
      linarith
    refine ⟨k1, ?_, ?_⟩
    · -- 6 η L ≤ u s Q, from 2^-451 ≤ L and L² ≤ 2 Q
      have a1 : 6 * (2 : ℝ) ^ (-1075 : ℤ) ≤ 2 ^ (-53 : ℤ) * 2 ^ (-100 : ℤ) * (2 ^ (-451 : ℤ) / 2) := by
        have e : (2 : ℝ) ^ (-53 : ℤ) * 2 ^ (-100 : ℤ) * (2 ^ (-451 : ℤ) / 2) = 2 ^ (-605 : ℤ) := by
          rw [div_eq_mul_inv, ← zpow_neg_one, ← zpow_add₀ (by norm_num), ← zpow_add₀ (by norm_num), ← zpow_add₀ (by norm_num)]
          norm_num
        rw [e]
        calc 6 * (2 : ℝ) ^ (-1075 : ℤ) ≤ 2 ^ (3 : ℤ) * 2 ^ (-1075 : ℤ) := by gcongr; norm_num
          _ = 2 ^ (-1072 : ℤ) := by rw [← zpow_add₀ (by norm_num)]; norm_num
          _ ≤ 2 ^ (-605 : ℤ) := zpow_le_zpow_right₀ (by norm_num) (by norm_num)
      have a2 : L * (L / 2) ≤ Q := by nlinarith
      calc 6 * ((2 : ℝ) ^ (-1075 : ℤ) * L) = 6 * 2 ^ (-1075 : ℤ) * L := by ring
        _ ≤ 2 ^ (-53 : ℤ) * 2 ^ (-100 : ℤ) * (2 ^ (-451 : ℤ) / 2) * L := mul_le_mul_of_nonneg_right a1 N0
        _ ≤ 2 ^ (-53 : ℤ) * s * (L / 2) * L := by gcongr
        _ = 2 ^ (-53 : ℤ) * s * (L * (L / 2)) := by ring
        _ ≤ _ := mul_le_mul_of_nonneg_left a2 (by have := lt_of_lt_of_le (by positivity) hs; positivity)
    · calc (2 : ℝ) ^ (-1075 : ℤ) * L ≤ 2 ^ (-1075 : ℤ) * 2 ^ (451 : ℤ) := by gcongr
        _ = 2 ^ (-624 : ℤ) := by rw [← zpow_add₀ (by norm_num)]; norm_num
        _ ≤ 2 ^ (-53 + -100 : ℤ) := zpow_le_zpow_right₀ (by norm_num) (by norm_num)
        _ = 2 ^ (-53 : ℤ) * 2 ^ (-100 : ℤ) := zpow_add₀ (by norm_num) _ _
        _ ≤ _ := by gcongr

section
variable {s N D T : ℝ} {dims : Dims} {t : Fin 3 → ℝ} {vertices : List (Fin 3 → ℝ)} {triangles : List (ℤ × ℤ × ℤ)}

/-- Some triangle of the mesh is `v1 v2 v3`. -/
def Spec.HasTriangle (vertices : List (Fin 3 → ℝ)) (triangles : List (ℤ × ℤ × ℤ)) (v1 v2 v3 : Fin 3 → ℝ) : Prop :=
  ∃ tri ∈ triangles, corners vertices tri = some (v1, v2, v3)

/-- A mesh of small triangles near the origin of the map: sides up to `D`, vertices within `N - 3` cells. -/
structure Spec.FineMesh (N s D : ℝ) (t : Fin 3 → ℝ) (vertices : List (Fin 3 → ℝ)) (triangles : List (ℤ × ℤ × ℤ)) : Prop where
  within : ∀ v ∈ vertices, WithinCells N s t v
  sides : ∀ v1 v2 v3, HasTriangle vertices triangles v1 v2 v3 → SidesAtMost D v1 v2 v3
  normal : ∀ v1 v2 v3, HasTriangle vertices triangles v1 v2 v3 → NormalInRange v1 v2 v3

/-- A point of the surface. -/
def Spec.OnMesh (vertices : List (Fin 3 → ℝ)) (triangles : List (ℤ × ℤ × ℤ)) (p : Fin 3 → ℝ) : Prop :=
  ∃ v1 v2 v3, HasTriangle vertices triangles v1 v2 v3 ∧ OnTriangle v1 v2 v3 p

/-- C80 in `double`: a mesh of triangles with sides up to `D`, rasterized with enforcement into an empty map without rotation.  If
the call returns, every point of the surface that is in a cell (by 2^-50 cells per cell of distance from the origin) and nearer
to its centre than half the diagonal by `D` and the rounding errors has its cell in the map and filled; at faces of cells this
holds for one of the cells that meet there; and every filled cell has a point of the surface within half a cell, `D` and the
rounding errors of its centre, on each axis. -/
theorem C80_fine_mesh_double (hs : (2 : ℝ) ^ (-100 : ℤ) ≤ s) (hs' : s ≤ 2 ^ (100 : ℤ)) (h1 : 1 ≤ N) (hN : N ≤ 2 ^ 43)
    (hT : ∀ a, |t a| ≤ T) (hm : FineMesh N s D t vertices triangles) {occ' : Idx → Fl}
    (hrun : FlMeshRuns (rastOver (roundedArith roundDouble) root3Double) (shiftedMap roundDouble dims s t) true vertices triangles
      (fun _ => .fin 0) false occ') :
    (∀ p c, OnMesh vertices triangles p → DeepInBox (N * s / 2 ^ 50) s t c p →
      dist3 p (worldCentre s t c) + D + (T + 28 * (N * s)) / 2 ^ 51 ≤ Real.sqrt 3 / 2 * s →
      ∃ j : Idx, dims.In j ∧ c = ![(j.1 : ℤ), (j.2.1 : ℤ), (j.2.2 : ℤ)] ∧ occ' j = .fin 1) ∧
    (∀ p, OnMesh vertices triangles p → ∃ c, InBoxUpTo (N * s / 2 ^ 50) s t c p ∧
      (dist3 p (worldCentre s t c) + D + (T + 28 * (N * s)) / 2 ^ 51 ≤ Real.sqrt 3 / 2 * s →
        ∃ j : Idx, dims.In j ∧ c = ![(j.1 : ℤ), (j.2.1 : ℤ), (j.2.2 : ℤ)] ∧ occ' j = .fin 1)) ∧
    ∀ j, occ' j ≠ .fin 0 → dims.In j ∧ occ' j = .fin 1 ∧ ∃ p, OnMesh vertices triangles p ∧ ∀ a,
      |p a - worldCentre s t ![(j.1 : ℤ), (j.2.1 : ℤ), (j.2.2 : ℤ)] a| ≤ s / 2 + D + N * s / 2 ^ 50 := by
  have h := raster_double hs hs' h1 hN
  have e53 : (2 : ℝ) ^ (-53 : ℤ) = 1 / 2 ^ 53 := by rw [zpow_neg, one_div]; norm_cast
  have e1 : 8 * ((2 : ℝ) ^ (-53 : ℤ) * (N * s)) = N * s / 2 ^ 50 := by rw [e53]; ring
  have e2 : (2 : ℝ) ^ (-53 : ℤ) * (4 * T + 112 * (N * s)) = (T + 28 * (N * s)) / 2 ^ 51 := by rw [e53]; ring
  refine ⟨?_, ?_, ?_⟩
  · rintro p c ⟨v1, v2, v3, ⟨tri, htri, hc⟩, hp⟩ hbox hd
    obtain ⟨m1, m2, m3⟩ := corners_mem hc
    refine C80_enforced h hT hrun htri hc (hm.within _ m1) (hm.within _ m2) (hm.within _ m3)
      (normal_in_range hs (hm.normal _ _ _ ⟨tri, htri, hc⟩)) (hm.sides _ _ _ ⟨tri, htri, hc⟩) hp (e1 ▸ hbox) ?_
    rw [e2]
    linarith
  · rintro p ⟨v1, v2, v3, ⟨tri, htri, hc⟩, hp⟩
    obtain ⟨m1, m2, m3⟩ := corners_mem hc
    obtain ⟨c, hc1, hc2⟩ := C80_enforced_somewhere h (fun x y hxy => rne_mono (by norm_num) hxy) hT hrun htri hc (hm.within _ m1)
      (hm.within _ m2) (hm.within _ m3) (normal_in_range hs (hm.normal _ _ _ ⟨tri, htri, hc⟩)) (hm.sides _ _ _ ⟨tri, htri, hc⟩) hp
    refine ⟨c, e1 ▸ hc1, fun hd => hc2 ?_⟩
    rw [e2]
    linarith
  · intro j hj
    have hfill := C69_only_fills hrun j
    have hfill' := hfill.resolve_left hj
    obtain ⟨tri, htri, v1, v2, v3, hc, hnear⟩ := C80_small_triangles_only_near h hm.within
      (fun tri htri v1 v2 v3 hc => hm.sides _ _ _ ⟨tri, htri, hc⟩) hrun hj
    refine ⟨hfill'.2, hfill'.1, v1, ⟨v1, v2, v3, ⟨tri, htri, hc⟩, onTriangle_first _ _ _⟩, fun a => ?_⟩
    have := hnear v1 (onTriangle_first _ _ _) a
    rw [e1] at this
    exact this

/-- The map of `RasterizeMeshIntoOccupancyMap` is such a map (mesh_rasterizer.cpp:238-273). -/
theorem C80_new_map_shifted {r : ℝ → ℝ} {root3 res : ℝ} {ceilInt : ℝ → Option ℤ} {v : Fin 3 → ℝ} {vs : List (Fin 3 → ℝ)}
    {m : FlRastMap ℝ} (hm : flMeshMap (rastOver (roundedArith r) root3) ceilInt 2 res v vs = some m) :
    m = shiftedMap r m.dims res fun a => r (meshLow v vs a - res) := by
  unfold flMeshMap at hm
  split_ifs at hm
  obtain ⟨n, -, rfl⟩ := Option.map_eq_some_iff.mp hm
  have hl := flMeshLow_rounded (A := rastOver (roundedArith r) root3) (r := r) rfl vs v
  simp only [hl]
  rfl

/-- `RasterizeMeshIntoOccupancyMap` in `double` gives one map, whatever the number of threads, and it is as required for
`C80_fine_mesh_double`. -/
theorem new_map_fine {res M : ℝ} (hs : (2 : ℝ) ^ (-100 : ℤ) ≤ res) (hs' : res ≤ 2 ^ (100 : ℤ)) (hM0 : 0 ≤ M) (hM : M ≤ 2 ^ 40)
    {v : Fin 3 → ℝ} {vs : List (Fin 3 → ℝ)} (hrep : ∀ w ∈ v :: vs, ∀ a, roundDouble (w a) = w a)
    (hsize : ∀ w ∈ v :: vs, ∀ a, |w a| ≤ M * res)
    (hidx : ∀ t ∈ triangles, ∀ k, k = t.1 ∨ k = t.2.1 ∨ k = t.2.2 → 0 ≤ k ∧ k < ((v :: vs).length : ℤ))
    (hside : ∀ v1 v2 v3, HasTriangle (v :: vs) triangles v1 v2 v3 → SidesAtMost D v1 v2 v3 ∧ NormalInRange v1 v2 v3) :
    ∃ m t occ', flMeshMap (rastOver (roundedArith roundDouble) root3Double) (fun x => some ⌈x⌉) 2 res v vs = some m ∧
      (∀ a, |t a - (meshLow v vs a - res)| ≤ (M + 2) * res / 2 ^ 53) ∧ (∀ a, |t a| ≤ (M + 2) * res) ∧
      FineMesh (2 * M + 5) res D t (v :: vs) triangles ∧ m = shiftedMap roundDouble m.dims res t ∧
      FlMeshRuns (rastOver (roundedArith roundDouble) root3Double) m true (v :: vs) triangles (fun _ => .fin 0) false occ' ∧
      ∀ threw occ'', FlMeshRuns (rastOver (roundedArith roundDouble) root3Double) m true (v :: vs) triangles (fun _ => .fin 0)
        threw occ'' → threw = false ∧ occ'' = occ' := by
  have res0 : 0 < res := lt_of_lt_of_le (by positivity) hs
  have h := raster_double (N := 2 * M + 5) hs hs' (by linarith) (by norm_num at hM ⊢; linarith)
  obtain ⟨m, hmap, -, hno⟩ := C69_into_new_map_double (A := rastOver (roundedArith roundDouble) root3Double) rfl
    (res := res) ((zpow_le_zpow_right₀ (by norm_num) (by norm_num)).trans hs)
    (hs'.trans (zpow_le_zpow_right₀ (by norm_num) (by norm_num))) hrep
    (fun w hw a => (hsize w hw a).trans (mul_le_mul_of_nonneg_right (by norm_num at hM ⊢; linarith) res0.le)) hidx
  have hshift := C80_new_map_shifted hmap
  obtain ⟨t, ht⟩ : ∃ t : Fin 3 → ℝ, t = fun a => roundDouble (meshLow v vs a - res) := ⟨_, rfl⟩
  rw [← ht] at hshift
  -- the origin of the map
  have e53 : (2 : ℝ) ^ (-53 : ℤ) = 1 / 2 ^ 53 := by rw [zpow_neg, one_div]; norm_cast
  have hlow : ∀ a, |meshLow v vs a - res| ≤ (M + 1) * res := by
    intro a
    obtain ⟨l, hl, el⟩ := meshLow_mem a vs v
    have b := abs_le.1 (hsize l hl a)
    rw [el, abs_le]
    constructor <;> linarith [b.1, b.2]
  have herr : ∀ a, |t a - (meshLow v vs a - res)| ≤ (M + 2) * res / 2 ^ 53 := by
    intro a
    have k := double_err.err (meshLow v vs a - res)
    have k2 := h.eta_s
    rw [e53] at k k2
    have k3 : (1 : ℝ) / 2 ^ 53 * |meshLow v vs a - res| ≤ 1 / 2 ^ 53 * ((M + 1) * res) :=
      mul_le_mul_of_nonneg_left (hlow a) (by positivity)
    have k4 : (1 : ℝ) / 2 ^ 53 * ((M + 1) * res) + 1 / 2 ^ 53 * res = (M + 2) * res / 2 ^ 53 := by ring
    rw [ht]
    show |roundDouble (meshLow v vs a - res) - (meshLow v vs a - res)| ≤ _
    linarith
  have hM2 : (M + 2) * res / 2 ^ 53 ≤ res := by
    rw [div_le_iff₀ (by positivity)]
    have : M + 2 ≤ 2 ^ 53 := by norm_num at hM ⊢; linarith
    nlinarith
  have hT : ∀ a, |t a| ≤ (M + 2) * res := by
    intro a
    have k1 := herr a
    have k2 := hlow a
    have k3 : |t a| ≤ |t a - (meshLow v vs a - res)| + |meshLow v vs a - res| := by
      have := abs_add_le (t a - (meshLow v vs a - res)) (meshLow v vs a - res)
      rwa [sub_add_cancel] at this
    linarith
  have hwithin : ∀ w ∈ v :: vs, WithinCells (2 * M + 5) res t w := by
    intro w hw a
    have k1 := hsize w hw a
    have k2 := hT a
    have k3 := abs_sub (w a) (t a)
    have k4 : (2 * M + 5 - 3) * res = M * res + (M + 2) * res := by ring
    rw [k4]
    linarith
  have hfine : FineMesh (2 * M + 5) res D t (v :: vs) triangles :=
    ⟨hwithin, fun v1 v2 v3 hv => (hside v1 v2 v3 hv).1, fun v1 v2 v3 hv => (hside v1 v2 v3 hv).2⟩
  -- the call returns
  obtain ⟨threw, occ', hrun⟩ := C69_has_outcome (A := rastOver (roundedArith roundDouble) root3Double) (m := m) (enforce := true)
    (vertices := v :: vs) (triangles := triangles) (fun tri htri => by
      obtain ⟨v1, v2, v3, e, -⟩ := corners_valid (hidx tri htri)
      exact Option.isSome_iff_exists.mpr ⟨_, (flTriangleActs_some e).mpr ⟨_, _, rfl, rfl, rfl⟩⟩) (fun _ => .fin 0)
  obtain ⟨rfl, -⟩ := hno threw occ' hrun
  refine ⟨m, t, occ', hmap, herr, hT, hfine, hshift, hrun, fun threw occ'' hr => ?_⟩
  obtain ⟨rfl, -⟩ := hno threw occ'' hr
  exact ⟨rfl, ((C69_order_and_schedule_independent (List.Perm.refl _) hr hrun).2 rfl)⟩

/-- C80, from mesh to map in `double`: `RasterizeMeshIntoOccupancyMap` on a mesh with coordinates within `M ≤ 2^40` cells of the
world's origin and triangles with sides up to `D` gives one map, whatever the number of threads.  Every point of the surface is,
up to rounding, in a cell that is filled if its centre is nearer than half the diagonal by `D` (and the rounding errors); away from
faces of cells that is the cell of the point; each filled cell has a point of the surface within half a cell, `D` and the
rounding errors on each axis. -/
theorem C80_new_map_double {res M : ℝ} (hs : (2 : ℝ) ^ (-100 : ℤ) ≤ res) (hs' : res ≤ 2 ^ (100 : ℤ)) (hM0 : 0 ≤ M) (hM : M ≤ 2 ^ 40)
    {v : Fin 3 → ℝ} {vs : List (Fin 3 → ℝ)} (hrep : ∀ w ∈ v :: vs, ∀ a, roundDouble (w a) = w a)
    (hsize : ∀ w ∈ v :: vs, ∀ a, |w a| ≤ M * res)
    (hidx : ∀ t ∈ triangles, ∀ k, k = t.1 ∨ k = t.2.1 ∨ k = t.2.2 → 0 ≤ k ∧ k < ((v :: vs).length : ℤ))
    (hside : ∀ v1 v2 v3, HasTriangle (v :: vs) triangles v1 v2 v3 → SidesAtMost D v1 v2 v3 ∧ NormalInRange v1 v2 v3) :
    ∃ m t occ', flMeshMap (rastOver (roundedArith roundDouble) root3Double) (fun x => some ⌈x⌉) 2 res v vs = some m ∧
      (∀ a, |t a - (meshLow v vs a - res)| ≤ (M + 2) * res / 2 ^ 53) ∧
      FlMeshRuns (rastOver (roundedArith roundDouble) root3Double) m true (v :: vs) triangles (fun _ => .fin 0) false occ' ∧
      (∀ threw occ'', FlMeshRuns (rastOver (roundedArith roundDouble) root3Double) m true (v :: vs) triangles (fun _ => .fin 0)
        threw occ'' → threw = false ∧ occ'' = occ') ∧
      (∀ p, OnMesh (v :: vs) triangles p → ∃ c, InBoxUpTo ((M + 3) * res / 2 ^ 49) res t c p ∧
        (dist3 p (worldCentre res t c) + D + (M + 3) * res / 2 ^ 45 ≤ Real.sqrt 3 / 2 * res →
          ∃ j : Idx, m.dims.In j ∧ c = ![(j.1 : ℤ), (j.2.1 : ℤ), (j.2.2 : ℤ)] ∧ occ' j = .fin 1)) ∧
      (∀ p c, OnMesh (v :: vs) triangles p → DeepInBox ((M + 3) * res / 2 ^ 49) res t c p →
        dist3 p (worldCentre res t c) + D + (M + 3) * res / 2 ^ 45 ≤ Real.sqrt 3 / 2 * res →
        ∃ j : Idx, m.dims.In j ∧ c = ![(j.1 : ℤ), (j.2.1 : ℤ), (j.2.2 : ℤ)] ∧ occ' j = .fin 1) ∧
      ∀ j, occ' j ≠ .fin 0 → m.dims.In j ∧ occ' j = .fin 1 ∧ ∃ p, OnMesh (v :: vs) triangles p ∧ ∀ a,
        |p a - worldCentre res t ![(j.1 : ℤ), (j.2.1 : ℤ), (j.2.2 : ℤ)] a| ≤ res / 2 + D + (M + 3) * res / 2 ^ 49 := by
  have res0 : 0 < res := lt_of_lt_of_le (by positivity) hs
  obtain ⟨m, t, occ', hmap, herr, hT, hfine, hshift, hrun, huniq⟩ := new_map_fine hs hs' hM0 hM hrep hsize hidx hside
  have hrun' := hrun
  rw [hshift] at hrun'
  obtain ⟨g1, g2, g3⟩ := C80_fine_mesh_double hs hs' (by linarith) (by norm_num at hM ⊢; linarith) hT hfine hrun'
  have Mr : 0 ≤ (M + 3) * res := by positivity
  have e1 : (2 * M + 5) * res / 2 ^ 50 ≤ (M + 3) * res / 2 ^ 49 := by
    rw [div_le_div_iff₀ (by positivity) (by positivity)]
    linarith
  have e2 : ((M + 2) * res + 28 * ((2 * M + 5) * res)) / 2 ^ 51 ≤ (M + 3) * res / 2 ^ 45 := by
    rw [div_le_div_iff₀ (by positivity) (by positivity)]
    linarith
  refine ⟨m, t, occ', hmap, herr, hrun, huniq, fun p hp => ?_, fun p c hp hbox hd => ?_, fun j hj => ?_⟩
  · obtain ⟨c, hc1, hc2⟩ := g2 p hp
    refine ⟨c, fun a => ⟨?_, ?_⟩, fun hd => hc2 ?_⟩
    · linarith [(hc1 a).1]
    · linarith [(hc1 a).2]
    · linarith
  · refine g1 p c hp (fun a => ⟨?_, ?_⟩) ?_
    · linarith [(hbox a).1]
    · linarith [(hbox a).2]
    · linarith
  · obtain ⟨a1, a2, p, hp, hnear⟩ := g3 j hj
    exact ⟨a1, a2, p, hp, fun a => by linarith [hnear a]⟩

end

/-- Full statement: every point of the surface is in a filled cell.  The condition on the distance cannot be dropped, however small
the triangles: a new map has the lower corner of the mesh at a corner of a cell, and a triangle there with sides of 2^-60 cells is
lost, because half the computed diagonal is rounded down.  The call returns an empty map. -/
theorem C80_corner_lost :
    ((flMeshMap doubleRast (Fl.ceilInt 64) (.fin 2) (.fin 1) (fun _ => .fin 0)
        [![.fin (1 / 2 ^ 60), .fin 0, .fin 0], ![.fin 0, .fin (1 / 2 ^ 60), .fin 0]]).bind fun m =>
      flTriangleActs doubleRast m true
        [fun _ => .fin 0, ![.fin (1 / 2 ^ 60), .fin 0, .fin 0], ![.fin 0, .fin (1 / 2 ^ 60), .fin 0]] (0, 1, 2)) = some [] := by
  decide +kernel

/-! ### A mesh -/

theorem roundDouble_int_real {n : ℤ} (h : |n| ≤ 2 ^ 53) : roundDouble (n : ℝ) = n := by
  have := rne_exact (K := ℝ) (p := 53) (emin := -1074) n 0 (by norm_num) h (by norm_num)
  simpa [roundDouble] using this

/-- A small triangle at the world's origin and one 60 units away on each axis. -/
noncomputable def exampleMesh : List (Fin 3 → ℝ) :=
  [![1, 0, 0], ![0, 1, 0], ![60, 60, 60], ![61, 60, 60], ![60, 61, 60]]

theorem exampleMesh_triangles {v1 v2 v3 : Fin 3 → ℝ}
    (h : HasTriangle (![0, 0, 0] :: exampleMesh) [(0, 1, 2), (3, 4, 5)] v1 v2 v3) :
    (v1 = ![0, 0, 0] ∧ v2 = ![1, 0, 0] ∧ v3 = ![0, 1, 0]) ∨ (v1 = ![60, 60, 60] ∧ v2 = ![61, 60, 60] ∧ v3 = ![60, 61, 60]) := by
  obtain ⟨tri, htri, hc⟩ := h
  simp only [List.mem_cons, List.not_mem_nil, or_false] at htri
  rcases htri with rfl | rfl
  · left
    simp [corners, vertexAt, exampleMesh] at hc
    exact ⟨hc.1.symm, hc.2.1.symm, hc.2.2.symm⟩
  · right
    simp [corners, vertexAt, exampleMesh] at hc
    exact ⟨hc.1.symm, hc.2.1.symm, hc.2.2.symm⟩

theorem exampleMesh_size : ∀ w ∈ ![0, 0, 0] :: exampleMesh, ∀ a, ∃ n : ℤ, w a = n ∧ |n| ≤ 61 := by
  intro w hw a
  simp only [exampleMesh, List.mem_cons, List.not_mem_nil, or_false] at hw
  have g : ∀ n : ℤ, |n| ≤ 61 → ∃ k : ℤ, (n : ℝ) = k ∧ |k| ≤ 61 := fun n hn => ⟨n, rfl, hn⟩
  have g0 := g 0 (by norm_num)
  have g1 := g 1 (by norm_num)
  have g12 := g 60 (by norm_num)
  have g13 := g 61 (by norm_num)
  push_cast at g0 g1 g12 g13
  rcases hw with rfl | rfl | rfl | rfl | rfl | rfl <;> fin_cases a <;> assumption

theorem exampleMesh_normal {x : ℤ} (hx : |x| ≤ 100) :
    NormalInRange ![(x : ℝ), x, x] ![(x : ℝ) + 1, x, x] ![(x : ℝ), x + 1, x] := by
  have r0 : roundDouble (0 : ℝ) = 0 := by simpa using roundDouble_int_real (n := 0) (by norm_num)
  have r1 : roundDouble (1 : ℝ) = 1 := by simpa using roundDouble_int_real (n := 1) (by norm_num)
  have e : rdot roundDouble (roundedNormal roundDouble ![(x : ℝ), x, x] ![(x : ℝ) + 1, x, x] ![(x : ℝ), x + 1, x])
      (roundedNormal roundDouble ![(x : ℝ), x, x] ![(x : ℝ) + 1, x, x] ![(x : ℝ), x + 1, x]) = 1 := by
    simp [rdot, roundedNormal, rastOver, flVsub, roundedArith, r0, r1]
  right
  rw [e]
  refine ⟨?_, ?_⟩
  · have : (2 : ℝ) ^ (-900 : ℤ) ≤ 2 ^ (0 : ℤ) := zpow_le_zpow_right₀ (by norm_num) (by norm_num)
    simpa using this
  · have : (2 : ℝ) ^ (0 : ℤ) ≤ 2 ^ (900 : ℤ) := zpow_le_zpow_right₀ (by norm_num) (by norm_num)
    simpa using this

theorem exampleMesh_sides {x : ℝ} : SidesAtMost 2 ![x, x, x] ![x + 1, x, x] ![x, x + 1, x] := by
  refine ⟨?_, ?_, ?_⟩ <;> refine Real.sqrt_le_iff.2 ⟨by norm_num, ?_⟩ <;> simp <;> norm_num

theorem eight_in_range : (2 : ℝ) ^ (-100 : ℤ) ≤ 8 ∧ (8 : ℝ) ≤ 2 ^ (100 : ℤ) := by
  constructor
  · calc (2 : ℝ) ^ (-100 : ℤ) ≤ 2 ^ (0 : ℤ) := zpow_le_zpow_right₀ (by norm_num) (by norm_num)
      _ ≤ 8 := by norm_num
  · calc (8 : ℝ) = 2 ^ (3 : ℤ) := by norm_num
      _ ≤ 2 ^ (100 : ℤ) := zpow_le_zpow_right₀ (by norm_num) (by norm_num)

theorem exampleMesh_rep : ∀ w ∈ ![0, 0, 0] :: exampleMesh, ∀ a, roundDouble (w a) = w a := fun w hw a => by
  obtain ⟨n, e, hn⟩ := exampleMesh_size w hw a
  rw [e]
  exact roundDouble_int_real (hn.trans (by norm_num))

theorem exampleMesh_near : ∀ w ∈ ![0, 0, 0] :: exampleMesh, ∀ a, |w a| ≤ 8 * 8 := fun w hw a => by
  obtain ⟨n, e, hn⟩ := exampleMesh_size w hw a
  rw [e, ← Int.cast_abs]
  have : ((|n| : ℤ) : ℝ) ≤ 61 := by exact_mod_cast hn
  linarith

theorem exampleMesh_idx : ∀ t ∈ [((0 : ℤ), (1 : ℤ), (2 : ℤ)), (3, 4, 5)], ∀ k, k = t.1 ∨ k = t.2.1 ∨ k = t.2.2 →
    0 ≤ k ∧ k < ((![(0 : ℝ), 0, 0] :: exampleMesh).length : ℤ) := fun tri htri k hk => by
  simp only [List.mem_cons, List.not_mem_nil, or_false] at htri
  rcases htri with rfl | rfl <;> rcases hk with rfl | rfl | rfl <;> simp [exampleMesh]

theorem exampleMesh_fine : ∀ v1 v2 v3, HasTriangle (![0, 0, 0] :: exampleMesh) [(0, 1, 2), (3, 4, 5)] v1 v2 v3 →
    SidesAtMost 2 v1 v2 v3 ∧ NormalInRange v1 v2 v3 := fun v1 v2 v3 hv => by
  rcases exampleMesh_triangles hv with ⟨rfl, rfl, rfl⟩ | ⟨rfl, rfl, rfl⟩
  · have h1 := exampleMesh_sides (x := 0)
    have h2 := exampleMesh_normal (x := 0) (by norm_num)
    norm_num at h1 h2
    exact ⟨h1, h2⟩
  · have h1 := exampleMesh_sides (x := 60)
    have h2 := exampleMesh_normal (x := 60) (by norm_num)
    norm_num at h1 h2
    exact ⟨h1, h2⟩

theorem exampleMesh_low (a : Fin 3) : meshLow (![0, 0, 0] : Fin 3 → ℝ) exampleMesh a = 0 := by
  fin_cases a <;> norm_num [meshLow, exampleMesh]

theorem exampleMesh_on : OnMesh (![0, 0, 0] :: exampleMesh) [(0, 1, 2), (3, 4, 5)] ![60, 60, 60] :=
  ⟨![60, 60, 60], ![61, 60, 60], ![60, 61, 60], ⟨(3, 4, 5), by simp, by simp [corners, vertexAt, exampleMesh]⟩, onTriangle_first _ _ _⟩

theorem exampleMesh_origin {t : Fin 3 → ℝ}
    (ht : ∀ a, |t a - (meshLow ![0, 0, 0] exampleMesh a - 8)| ≤ (8 + 2) * 8 / 2 ^ 53) (a : Fin 3) : |t a + 8| ≤ 1 / 100 := by
  have := ht a
  rw [exampleMesh_low a] at this
  have e : t a - (0 - 8) = t a + 8 := by ring
  rw [e] at this
  linarith [show ((8 : ℝ) + 2) * 8 / 2 ^ 53 ≤ 1 / 100 by norm_num]

/-- `C80_new_map_double`: in cells of 8 units the map of that mesh has cell (8, 8, 8) filled, with the second triangle in it. -/
theorem exampleMesh_filled {t : Fin 3 → ℝ} {dims : Dims} {occ' : Idx → Fl} (ht' : ∀ a, |t a + 8| ≤ 1 / 100)
    (hfill : ∀ p c, OnMesh (![0, 0, 0] :: exampleMesh) [(0, 1, 2), (3, 4, 5)] p → DeepInBox ((8 + 3) * 8 / 2 ^ 49) 8 t c p →
      dist3 p (worldCentre 8 t c) + 2 + (8 + 3) * 8 / 2 ^ 45 ≤ Real.sqrt 3 / 2 * 8 →
      ∃ j : Idx, dims.In j ∧ c = ![(j.1 : ℤ), (j.2.1 : ℤ), (j.2.2 : ℤ)] ∧ occ' j = .fin 1) :
    dims.In (8, 8, 8) ∧ occ' (8, 8, 8) = .fin 1 := by
  have c12 : ∀ a : Fin 3, (![60, 60, 60] : Fin 3 → ℝ) a = 60 := by intro a; fin_cases a <;> rfl
  have c2 : ∀ a : Fin 3, (![8, 8, 8] : Fin 3 → ℤ) a = 8 := by intro a; fin_cases a <;> rfl
  obtain ⟨j, hj, ej, hf⟩ := hfill ![60, 60, 60] ![8, 8, 8] exampleMesh_on
    (fun a => by
      have k := abs_le.1 (ht' a)
      rw [c12, c2]
      have : ((8 : ℝ) + 3) * 8 / 2 ^ 49 ≤ 1 / 100 := by norm_num
      push_cast
      constructor <;> linarith [k.1, k.2])
    (by
      have k : dist3 ![60, 60, 60] (worldCentre 8 t ![8, 8, 8]) ≤ 2 * (1 / 100) := dist3_le_two fun a => by
        have k := abs_le.1 (ht' a)
        have e : worldCentre 8 t ![8, 8, 8] a = 68 + t a := by
          show (((![8, 8, 8] : Fin 3 → ℤ) a : ℝ) * 8 + 8 / 2) + t a = _
          rw [c2]
          norm_num
        rw [c12, e, abs_le]
        constructor <;> linarith [k.1, k.2]
      have k3 : (1.7 : ℝ) ≤ Real.sqrt 3 := Real.le_sqrt_of_sq_le (by norm_num)
      have : ((8 : ℝ) + 3) * 8 / 2 ^ 45 ≤ 1 / 100 := by norm_num
      linarith)
  obtain ⟨j0, j1, j2⟩ := j
  have e0 := congrFun ej 0
  have e1 := congrFun ej 1
  have e2 := congrFun ej 2
  simp at e0 e1 e2
  have : ((j0, j1, j2) : Idx) = (8, 8, 8) := by
    simp only [Prod.mk.injEq]
    omega
  rw [← this]
  exact ⟨hj, hf⟩

example : ∃ m occ', flMeshMap (rastOver (roundedArith roundDouble) root3Double) (fun x => some ⌈x⌉) 2 8 ![0, 0, 0] exampleMesh = some m ∧
    FlMeshRuns (rastOver (roundedArith roundDouble) root3Double) m true (![0, 0, 0] :: exampleMesh) [(0, 1, 2), (3, 4, 5)]
      (fun _ => .fin 0) false occ' ∧ occ' (8, 8, 8) = .fin 1 := by
  obtain ⟨m, t, occ', hmap, ht, hrun, -, -, hfill, -⟩ := C80_new_map_double eight_in_range.1 eight_in_range.2 (by norm_num) (by norm_num)
    exampleMesh_rep exampleMesh_near exampleMesh_idx exampleMesh_fine
  exact ⟨m, occ', hmap, hrun, (exampleMesh_filled (exampleMesh_origin ht) hfill).2⟩

end VGT
