import Verif.Lemmas.Generated

/-!
C58: what the interpolated distance of a generated field says about the space around a location.
-/
set_option autoImplicit false

namespace VGT
open VGT.EDT VGT.Spec

section
variable {filled : Idx → Bool} {border : Bool} {g : SDFGrid ℝ}

theorem Sound.estimate_eq (h : Sound filled g) {q p : Vec ℝ} (hfr : InFrame g.pose.R g.pose.t q p) {e : ℝ}
    (he : g.estimate (point4 p) = some (some e)) :
    (∀ a, 0 ≤ ⌊q a / g.s⌋ ∧ ⌊q a / g.s⌋ < axisCells g.dims a) ∧ e = interp3 g.s q g.dims g.cval := by
  by_cases hbox : InGridBox (axisCells g.dims) g.s q
  · rw [estimate_in h.pos h.pose hfr hbox] at he
    exact ⟨floor_axis h.pos hbox, (Option.some.inj (Option.some.inj he)).symm⟩
  · rw [(C15_defined_in_grid h.pos h.pose hfr).2 hbox] at he
    simp at he

theorem sound_distance_to_filled (h : Sound filled g) {q p : Vec ℝ} (hfr : InFrame g.pose.R g.pose.t q p)
    (hin : BetweenCentres (axisCells g.dims) g.s q) {e : ℝ} (he : g.estimate (point4 p) = some (some e))
    {o : Fin 3 → ℤ} (ho : CellInGrid (axisCells g.dims) o) :
    (filled (cellIdx o) = true → e + g.s / 2 ≤ Real.sqrt (dist3 q (cellCentre g.s o) ^ 2 + 3 / 4 * g.s ^ 2)) ∧
    (filled (cellIdx o) = false → -e + g.s / 2 ≤ Real.sqrt (dist3 q (cellCentre g.s o) ^ 2 + 3 / 4 * g.s ^ 2)) := by
  obtain ⟨hfl, rfl⟩ := h.estimate_eq hfr he
  have hs := h.pos
  have hone : ∀ a, axisCells g.dims a = 1 → (g.s / 2 - cellCentre g.s o a) ^ 2 ≤
      (q a - cellCentre g.s o a) ^ 2 + g.s ^ 2 / 4 := by
    intro a ha
    have : o a = 0 := by have := ho a; omega
    unfold cellCentre
    rw [this]
    push_cast
    nlinarith [sq_nonneg g.s, sq_nonneg (q a - (0 * g.s + g.s / 2))]
  constructor <;> intro hfo
  · have := interp3_inner hs hfl hin hone (δ := -(g.s / 2)) (v := g.cval) (by
      intro x y z hc _
      rw [cval_boundaryDist, dist3_centres hs hc ho]
      have := (h.bounds (cellIdx_in hc) (cellIdx_in ho)).1 hfo
      linarith)
    linarith
  · have := interp3_inner hs hfl hin hone (δ := -(g.s / 2)) (v := fun x y z => -g.cval x y z) (by
      intro x y z hc _
      rw [cval_boundaryDist, dist3_centres hs hc ho]
      have := (h.bounds (cellIdx_in hc) (cellIdx_in ho)).2 hfo
      linarith)
    rw [← interp3_neg] at this
    linarith

theorem sound_clear_ball (h : Sound filled g) {q p : Vec ℝ} (hfr : InFrame g.pose.R g.pose.t q p)
    (hin : BetweenCentres (axisCells g.dims) g.s q) {e : ℝ} (he : g.estimate (point4 p) = some (some e))
    {o : Fin 3 → ℤ} (ho : CellInGrid (axisCells g.dims) o) {x y : Vec ℝ} (hxy : InFrame g.pose.R g.pose.t x y)
    (hx : InClosedCell g.s o x) :
    (filled (cellIdx o) = true → e - (Real.sqrt 3 - 1 / 2) * g.s ≤ dist3 p y) ∧
    (filled (cellIdx o) = false → -e - (Real.sqrt 3 - 1 / 2) * g.s ≤ dist3 p y) := by
  have hs := h.pos
  have h1 := sound_distance_to_filled h hfr hin he ho
  have h2 := sqrt_add_le_root (dist3_nonneg q (cellCentre g.s o)) hs.le
  have h3 := dist3_triangle q x (cellCentre g.s o)
  have h4 := dist3_in_cell hs hx
  rw [dist3_frame h.pose hfr hxy]
  constructor <;> intro hfo
  · have := h1.1 hfo; linarith
  · have := h1.2 hfo; linarith

theorem sound_clear_ball_everywhere (h : Sound filled g) {q p : Vec ℝ} (hfr : InFrame g.pose.R g.pose.t q p)
    {e : ℝ} (he : g.estimate (point4 p) = some (some e))
    {o : Fin 3 → ℤ} (ho : CellInGrid (axisCells g.dims) o) {x y : Vec ℝ} (hxy : InFrame g.pose.R g.pose.t x y)
    (hx : InClosedCell g.s o x) :
    (filled (cellIdx o) = true → e - (Real.sqrt 3 + 3) * g.s ≤ dist3 p y) ∧
    (filled (cellIdx o) = false → -e - (Real.sqrt 3 + 3) * g.s ≤ dist3 p y) := by
  have hs := h.pos
  obtain ⟨hfl, rfl⟩ := h.estimate_eq hfr he
  have h2 := sqrt_add_le_root (dist3_nonneg q (cellCentre g.s o)) hs.le
  have h3 := dist3_triangle q x (cellCentre g.s o)
  have h4 := dist3_in_cell hs hx
  rw [dist3_frame h.pose hfr hxy]
  obtain ⟨hx', hy', hz'⟩ := h.cval_step
  constructor <;> intro hfo
  · have := interp3_outer hs hfl ho (δ := -(g.s / 2)) (v := g.cval) (by
      intro x y z hc
      rw [cval_boundaryDist, dist3_centres hs hc ho]
      have := (h.bounds (cellIdx_in hc) (cellIdx_in ho)).1 hfo
      linarith)
      hx' hy' hz'
    linarith
  · have flip : ∀ {a b : ℝ}, |a - b| ≤ g.s → |-a - -b| ≤ g.s := by
      intro a b hab
      rw [show -a - -b = -(a - b) by ring, abs_neg]; exact hab
    have := interp3_outer hs hfl ho (δ := -(g.s / 2)) (v := fun x y z => -g.cval x y z) (by
      intro x y z hc
      rw [cval_boundaryDist, dist3_centres hs hc ho]
      have := (h.bounds (cellIdx_in hc) (cellIdx_in ho)).2 hfo
      linarith)
      (fun x y z hc hc' => flip (hx' x y z hc hc')) (fun x y z hc hc' => flip (hy' x y z hc hc'))
      (fun x y z hc hc' => flip (hz' x y z hc hc'))
    rw [← interp3_neg] at this
    linarith

theorem Generated.estimate_eq (h : Generated filled border g) {q p : Vec ℝ} (hfr : InFrame g.pose.R g.pose.t q p) {e : ℝ}
    (he : g.estimate (point4 p) = some (some e)) :
    (∀ a, 0 ≤ ⌊q a / g.s⌋ ∧ ⌊q a / g.s⌋ < axisCells g.dims a) ∧ e = interp3 g.s q g.dims g.cval :=
  h.sound.estimate_eq hfr he

/-- C58. A location between the outermost cell centres with estimated distance `e` is so far from the centre of every filled
cell that `e + s/2 ≤ √(D² + 3/4 s²)`: the estimate is wrong by less than half a cell edge, and by less and less far away. -/
theorem C58_distance_to_filled (h : Generated filled border g) {q p : Vec ℝ} (hfr : InFrame g.pose.R g.pose.t q p)
    (hin : BetweenCentres (axisCells g.dims) g.s q) {e : ℝ} (he : g.estimate (point4 p) = some (some e))
    {o : Fin 3 → ℤ} (ho : CellInGrid (axisCells g.dims) o) :
    (filled (cellIdx o) = true → e + g.s / 2 ≤ Real.sqrt (dist3 q (cellCentre g.s o) ^ 2 + 3 / 4 * g.s ^ 2)) ∧
    (filled (cellIdx o) = false → -e + g.s / 2 ≤ Real.sqrt (dist3 q (cellCentre g.s o) ^ 2 + 3 / 4 * g.s ^ 2)) :=
  sound_distance_to_filled h.sound hfr hin he ho

/-- C58. Clearance and penetration, in world coordinates: no point of a filled cell is nearer than the estimated distance
less `(√3 - 1/2)` cell edges, no point of a free cell is nearer than the estimated depth less the same. -/
theorem C58_clear_ball (h : Generated filled border g) {q p : Vec ℝ} (hfr : InFrame g.pose.R g.pose.t q p)
    (hin : BetweenCentres (axisCells g.dims) g.s q) {e : ℝ} (he : g.estimate (point4 p) = some (some e))
    {o : Fin 3 → ℤ} (ho : CellInGrid (axisCells g.dims) o) {x y : Vec ℝ} (hxy : InFrame g.pose.R g.pose.t x y)
    (hx : InClosedCell g.s o x) :
    (filled (cellIdx o) = true → e - (Real.sqrt 3 - 1 / 2) * g.s ≤ dist3 p y) ∧
    (filled (cellIdx o) = false → -e - (Real.sqrt 3 - 1 / 2) * g.s ≤ dist3 p y) :=
  sound_clear_ball h.sound hfr hin he ho hxy hx

/-- C58. The same at every location of the grid, also in the outer half of the outer cells where the code extrapolates: three
and a half cell edges more. -/
theorem C58_clear_ball_everywhere (h : Generated filled border g) {q p : Vec ℝ} (hfr : InFrame g.pose.R g.pose.t q p)
    {e : ℝ} (he : g.estimate (point4 p) = some (some e))
    {o : Fin 3 → ℤ} (ho : CellInGrid (axisCells g.dims) o) {x y : Vec ℝ} (hxy : InFrame g.pose.R g.pose.t x y)
    (hx : InClosedCell g.s o x) :
    (filled (cellIdx o) = true → e - (Real.sqrt 3 + 3) * g.s ≤ dist3 p y) ∧
    (filled (cellIdx o) = false → -e - (Real.sqrt 3 + 3) * g.s ≤ dist3 p y) :=
  sound_clear_ball_everywhere h.sound hfr he ho hxy hx

/-- C58. The estimate is not pessimistic: if the cells around the location are free and every filled cell centre is at least
`r` away, the estimate (of a field without virtual border) is at least `r - s/2` less half a cell diagonal. -/
theorem C58_not_pessimistic (h : Generated filled false g) {q p : Vec ℝ} (hfr : InFrame g.pose.R g.pose.t q p)
    (hin : BetweenCentres (axisCells g.dims) g.s q) {e : ℝ} (he : g.estimate (point4 p) = some (some e))
    (hfree : ∀ c, CellInGrid (axisCells g.dims) c → Around g.s q c → filled (cellIdx c) = false) {r : ℝ}
    (hr : ∀ o, CellInGrid (axisCells g.dims) o → filled (cellIdx o) = true → r ≤ dist3 q (cellCentre g.s o)) :
    r - g.s / 2 - Real.sqrt 3 / 2 * g.s ≤ e := by
  obtain ⟨hfl, rfl⟩ := h.estimate_eq hfr he
  have hs := h.pos
  have hone : ∀ a, axisCells g.dims a = 1 → (g.s / 2 - q a) ^ 2 ≤ (q a - q a) ^ 2 + g.s ^ 2 / 4 := by
    intro a ha
    have h0 := hfl a
    have hz : ⌊q a / g.s⌋ = 0 := by omega
    rw [Int.floor_eq_iff, le_div_iff₀ hs, div_lt_iff₀ hs] at hz
    push_cast at hz
    nlinarith
  have := interp3_inner hs hfl hin hone (δ := -r + g.s / 2) (v := fun x y z => -g.cval x y z) (by
    intro x y z hc ha
    rw [cval_boundaryDist]
    have fc := hfree _ hc ha
    obtain ⟨ro, gi, isFilled, oob, out, hok, hrr, hcc, hd, hsx, hf, hrun, hout⟩ := h.run
    unfold GridGenRuns at hrun
    rw [if_neg (not_not.2 hok.uniform), if_pos rfl] at hrun
    have hfits : Fits gi.dims := hok.fits.of_enlarge
    obtain ⟨out', e, h3⟩ := C01_sdf_exact_real hok.rq hrr hcc hok.res hfits hf hrun
    cases e
    have hci : gi.dims.In (cellIdx ![x, y, z]) := by rw [hd]; exact cellIdx_in hc
    have hge := (h.sign (cellIdx_in hc)).1 fc
    unfold boundaryDist
    rw [if_pos (by linarith)]
    rcases (h3 _ hci).1 fc with ⟨_, hinf⟩ | ⟨o, ho1, ho2, _, ho4⟩
    · rw [hout _ hci] at hinf
      exact absurd hinf (by simp)
    · rw [hout _ hci, hsx] at ho4
      have hval := Rl.fin.inj ho4
      have hoc : cellIdx ![(o.1 : ℤ), (o.2.1 : ℤ), (o.2.2 : ℤ)] = o := rfl
      have hog : CellInGrid (axisCells g.dims) ![(o.1 : ℤ), (o.2.1 : ℤ), (o.2.2 : ℤ)] := by
        rw [hd] at ho1
        obtain ⟨a1, a2, a3⟩ := ho1
        intro a
        fin_cases a
        · exact ⟨Int.natCast_nonneg _, Int.ofNat_lt.2 a1⟩
        · exact ⟨Int.natCast_nonneg _, Int.ofNat_lt.2 a2⟩
        · exact ⟨Int.natCast_nonneg _, Int.ofNat_lt.2 a3⟩
      have hdist := dist3_centres hs hc hog
      rw [hoc] at hdist
      have hro := hr _ hog (by rw [hoc]; exact ho2)
      have htri := dist3_triangle q (cellCentre g.s ![x, y, z]) (cellCentre g.s ![(o.1 : ℤ), (o.2.1 : ℤ), (o.2.2 : ℤ)])
      rw [dist3_comm q (cellCentre g.s ![x, y, z])] at htri
      rw [hval]
      linarith)
  rw [← interp3_neg] at this
  have h2 := sqrt_add_le_root (dist3_nonneg q q) hs.le
  have h0 : dist3 q q = 0 := by unfold dist3; simp
  rw [h0] at h2 this
  linarith

end

/-- Every layout with a free and a filled cell has a generated field, at any pose and resolution. -/
theorem C58_generated_exists {d : Dims} (hd : Fits (enlarge d)) {s : ℝ} (hs : 0 < s) {P : Pose ℝ} (hP : Orthogonal P.R)
    {filled : Idx → Bool} {i j : Idx} (hi : d.In i) (fi : filled i = false) (hj : d.In j) (fj : filled j = true) :
    ∃ g : SDFGrid ℝ, Generated filled false g ∧ g.dims = d ∧ g.s = s ∧ g.pose = P := by
  have hf : ∀ i, d.In i → (fun z : ZIdx => some (filled (z.1.toNat, z.2.1.toNat, z.2.2.toNat))) (toZ i) = some (filled i) :=
    fun _ _ => rfl
  obtain ⟨r, hr⟩ := C01_generation_total (ro := exactRounding) (d := d) s exact_rq hd.of_enlarge
    (fun z : ZIdx => some (filled (z.1.toNat, z.2.1.toNat, z.2.2.toNat))) (.fin 0)
  obtain ⟨out, rfl, h⟩ := C01_sdf_exact_real exact_rq rfl rfl hs hd.of_enlarge hf hr
  have hfin : ∀ i, d.In i → ∃ r, out i = .fin r := by
    intro k hk
    cases hb : filled k with
    | false =>
      rcases (h k hk).1 hb with ⟨hall, _⟩ | ⟨_, _, _, _, he⟩
      · rw [hall j hj] at fj; cases fj
      · exact ⟨_, he⟩
    | true =>
      rcases (h k hk).2 hb with ⟨hall, _⟩ | ⟨_, _, _, _, he⟩
      · rw [hall i hi] at fi; cases fi
      · exact ⟨_, he⟩
  refine ⟨⟨d, s, P, fun i => match out i with | .fin r => r | _ => 0⟩, ⟨hP, exactRounding, ⟨d, s, s, s⟩,
    fun z => some (filled (z.1.toNat, z.2.1.toNat, z.2.2.toNat)), .fin 0, out,
    ⟨exact_rq, exact_rr, exact_rr, ⟨rfl, rfl⟩, hs, rfl, hs, hd⟩, rfl, rfl, rfl, rfl, hf, ?_, ?_⟩, rfl, rfl, rfl⟩
  · unfold GridGenRuns
    rw [if_neg (not_not.2 ⟨rfl, rfl⟩), if_pos rfl]
    exact hr
  · intro k hk
    obtain ⟨r, hr⟩ := hfin k hk
    simp only [hr]

/-- The value of a generated field at a cell, from the nearest cell of the other kind. -/
theorem Generated.value {filled : Idx → Bool} {g : SDFGrid ℝ} (h : Generated filled false g) {i p : Idx}
    (hi : g.dims.In i) (fi : filled i = false) (hp : g.dims.In p) (fp : filled p = true)
    (hn : ∀ p', g.dims.In p' → filled p' = true → sq3 i p ≤ sq3 i p') : g.data i = Real.sqrt (sq3 i p) * g.s := by
  obtain ⟨ro, gi, isFilled, oob, out, hok, hrr, hcc, hd, hsx, hf, hrun, hout⟩ := h.run
  unfold GridGenRuns at hrun
  rw [if_neg (not_not.2 hok.uniform), if_pos rfl] at hrun
  obtain ⟨out', e, h3⟩ := C01_sdf_exact_real hok.rq hrr hcc hok.res hok.fits.of_enlarge hf hrun
  cases e
  rw [← hd] at hi hp hn
  rcases (h3 _ hi).1 fi with ⟨hall, _⟩ | ⟨o, ho1, ho2, ho3, ho4⟩
  · rw [hall p hp] at fp; cases fp
  · rw [hout _ hi, hsx] at ho4
    rw [Rl.fin.inj ho4, le_antisymm (hn o ho1 ho2) (ho3 p hp fp)]

theorem Generated.value_filled {filled : Idx → Bool} {g : SDFGrid ℝ} (h : Generated filled false g) {i p : Idx}
    (hi : g.dims.In i) (fi : filled i = true) (hp : g.dims.In p) (fp : filled p = false)
    (hn : ∀ p', g.dims.In p' → filled p' = false → sq3 i p ≤ sq3 i p') : g.data i = -(Real.sqrt (sq3 i p) * g.s) := by
  obtain ⟨ro, gi, isFilled, oob, out, hok, hrr, hcc, hd, hsx, hf, hrun, hout⟩ := h.run
  unfold GridGenRuns at hrun
  rw [if_neg (not_not.2 hok.uniform), if_pos rfl] at hrun
  obtain ⟨out', e, h3⟩ := C01_sdf_exact_real hok.rq hrr hcc hok.res hok.fits.of_enlarge hf hrun
  cases e
  rw [← hd] at hi hp hn
  rcases (h3 _ hi).2 fi with ⟨hall, _⟩ | ⟨o, ho1, ho2, ho3, ho4⟩
  · rw [hall p hp] at fp; cases fp
  · rw [hout _ hi, hsx] at ho4
    rw [Rl.fin.inj ho4, le_antisymm (hn o ho1 ho2) (ho3 p hp fp)]

/-- Two by two cells of which one is filled. -/
def exLone : Idx → Bool := fun i => decide (i = (0, 0, 0))

/-- The layout rotated by 90° about z and moved. -/
def exTurned : Pose ℝ := ⟨![![0, -1, 0], ![1, 0, 0], ![0, 0, 1]], ![5, 7, 0]⟩

theorem exTurned_orthogonal : Orthogonal exTurned.R := by
  constructor <;> intro a b <;> fin_cases a <;> fin_cases b <;> simp [exTurned]

/-- C58. The margin is needed: the estimated distance can exceed the true distance to a filled cell. At the centre of the
cell diagonal to a lone filled cell the estimate is `√2 - 1/2` cell edges, the distance to the filled cell is `√2 / 2`. -/
theorem C58_overestimates : ∃ g : SDFGrid ℝ, Generated exLone false g ∧ ∃ (p x y : Vec ℝ) (e : ℝ),
    g.estimate (point4 p) = some (some e) ∧ InFrame g.pose.R g.pose.t x y ∧ InClosedCell g.s ![0, 0, 0] x ∧
    dist3 p y = Real.sqrt 2 / 2 * g.s ∧ e = (Real.sqrt 2 - 1 / 2) * g.s ∧ dist3 p y + g.s / 5 < e := by
  obtain ⟨g, hg, hd, hs, hP⟩ := C58_generated_exists (d := ⟨2, 2, 1⟩) (by constructor <;> decide) (s := 1) one_pos
    exTurned_orthogonal (filled := exLone) (i := (1, 1, 0)) (j := (0, 0, 0)) (by decide) (by decide) (by decide) (by decide)
  have hval : g.data (1, 1, 0) = Real.sqrt 2 := by
    rw [hg.value (p := (0, 0, 0)) (by rw [hd]; decide) (by decide) (by rw [hd]; decide) (by decide), hs, mul_one]
    · norm_num [sq3, sqd]
    · intro p' _ hp'
      simp only [exLone, decide_eq_true_eq] at hp'
      rw [hp']
  have h2 : (1.41 : ℝ) < Real.sqrt 2 := by
    rw [Real.lt_sqrt (by norm_num)]; norm_num
  have he := C15_centre_value (g := g) (c := ![1, 1, 0]) (p := ![7 / 2, 17 / 2, 1 / 2]) hg.pos hg.pose
    (by rw [hd]; intro a; fin_cases a <;> simp [axisCells])
    (by rw [hP, hs]; intro a; fin_cases a <;> simp [exTurned, cellCentre] <;> norm_num)
  rw [show ((![1, 1, 0] : IVec) 0).toNat = 1 from rfl, show ((![1, 1, 0] : IVec) 1).toNat = 1 from rfl,
    show ((![1, 1, 0] : IVec) 2).toNat = 0 from rfl, hval] at he
  have hdist : dist3 ![7 / 2, 17 / 2, 1 / 2] ![4, 8, 1 / 2] = Real.sqrt 2 / 2 * g.s := by
    rw [hs, mul_one]
    unfold dist3
    rw [show Real.sqrt 2 / 2 = Real.sqrt (1 / 2) by
      rw [eq_comm, Real.sqrt_eq_iff_mul_self_eq (by norm_num) (by positivity)]
      rw [div_mul_div_comm, Real.mul_self_sqrt (by norm_num)]; norm_num]
    congr 1
    simp
    norm_num
  refine ⟨g, hg, ![7 / 2, 17 / 2, 1 / 2], ![1, 1, 1 / 2], ![4, 8, 1 / 2], _, he, ?_, ?_, hdist, ?_, ?_⟩
  · rw [hP]; intro a; fin_cases a <;> simp [exTurned] <;> norm_num
  · rw [hs]; intro a; fin_cases a <;> simp <;> norm_num
  · unfold boundaryDist; rw [hs, if_pos (by positivity)]; ring
  · rw [hdist]; unfold boundaryDist; rw [hs, if_pos (by positivity)]; linarith

/-- Concrete case of the clearance theorems: around the same lone filled cell, the location `(3/2, 1, 1/2)` of the grid frame
lies between the cell centres, its cells are in the grid, and the nearest point of the filled cell is 1/2 away. -/
example : ∃ g : SDFGrid ℝ, Generated exLone false g ∧
    InFrame g.pose.R g.pose.t ![3 / 2, 1, 1 / 2] ![4, 17 / 2, 1 / 2] ∧
    BetweenCentres (axisCells g.dims) g.s ![3 / 2, 1, 1 / 2] ∧ (∃ e, g.estimate (point4 ![4, 17 / 2, 1 / 2]) = some (some e)) ∧
    CellInGrid (axisCells g.dims) ![0, 0, 0] ∧ exLone (cellIdx ![0, 0, 0]) = true ∧
    CellInGrid (axisCells g.dims) ![1, 0, 0] ∧ exLone (cellIdx ![1, 0, 0]) = false ∧
    InFrame g.pose.R g.pose.t ![1, 1, 1 / 2] ![4, 8, 1 / 2] ∧ InClosedCell g.s ![0, 0, 0] ![1, 1, 1 / 2] := by
  obtain ⟨g, hg, hd, hs, hP⟩ := C58_generated_exists (d := ⟨2, 2, 1⟩) (by constructor <;> decide) (s := 1) one_pos
    exTurned_orthogonal (filled := exLone) (i := (1, 1, 0)) (j := (0, 0, 0)) (by decide) (by decide) (by decide) (by decide)
  have hfr : InFrame g.pose.R g.pose.t ![3 / 2, 1, 1 / 2] ![4, 17 / 2, 1 / 2] := by
    rw [hP]; intro a; fin_cases a <;> simp [exTurned] <;> norm_num
  refine ⟨g, hg, hfr, ?_, ?_, ?_, rfl, ?_, rfl, ?_, ?_⟩
  · rw [hd, hs]; intro a; fin_cases a <;> simp [axisCells] <;> norm_num
  · exact ⟨_, estimate_in hg.pos hg.pose hfr (by rw [hd, hs]; intro a; fin_cases a <;> simp [axisCells] <;> norm_num)⟩
  · rw [hd]; intro a; fin_cases a <;> simp [axisCells]
  · rw [hd]; intro a; fin_cases a <;> simp [axisCells]
  · rw [hP]; intro a; fin_cases a <;> simp [exTurned] <;> norm_num
  · rw [hs]; intro a; fin_cases a <;> simp <;> norm_num

/-- Concrete case of `C58_not_pessimistic`: in a row of four cells with the first filled, the location 2.75 along the row has
only free cells around it and is 2.25 from the filled centre. -/
example : ∃ g : SDFGrid ℝ, Generated exLone false g ∧
    InFrame g.pose.R g.pose.t ![11 / 4, 1 / 2, 1 / 2] ![9 / 2, 39 / 4, 1 / 2] ∧
    BetweenCentres (axisCells g.dims) g.s ![11 / 4, 1 / 2, 1 / 2] ∧
    (∃ e, g.estimate (point4 ![9 / 2, 39 / 4, 1 / 2]) = some (some e)) ∧
    (∀ c, CellInGrid (axisCells g.dims) c → Around g.s ![11 / 4, 1 / 2, 1 / 2] c → exLone (cellIdx c) = false) ∧
    (∀ o, CellInGrid (axisCells g.dims) o → exLone (cellIdx o) = true →
      9 / 4 ≤ dist3 ![11 / 4, 1 / 2, 1 / 2] (cellCentre g.s o)) := by
  obtain ⟨g, hg, hd, hs, hP⟩ := C58_generated_exists (d := ⟨4, 1, 1⟩) (by constructor <;> decide) (s := 1) one_pos
    exTurned_orthogonal (filled := exLone) (i := (1, 0, 0)) (j := (0, 0, 0)) (by decide) (by decide) (by decide) (by decide)
  have hfr : InFrame g.pose.R g.pose.t ![11 / 4, 1 / 2, 1 / 2] ![9 / 2, 39 / 4, 1 / 2] := by
    rw [hP]; intro a; fin_cases a <;> simp [exTurned] <;> norm_num
  have h0 : ∀ c, CellInGrid (axisCells g.dims) c → exLone (cellIdx c) = true → c 0 = 0 := by
    intro c hc hf
    simp only [exLone, cellIdx, decide_eq_true_eq, Prod.mk.injEq] at hf
    have := (hc 0).1
    omega
  refine ⟨g, hg, hfr, ?_, ?_, ?_, ?_⟩
  · rw [hd, hs]; intro a; fin_cases a <;> simp [axisCells] <;> norm_num
  · exact ⟨_, estimate_in hg.pos hg.pose hfr (by rw [hd, hs]; intro a; fin_cases a <;> simp [axisCells] <;> norm_num)⟩
  · intro c hc ha
    by_contra hf
    have hx := ha 0
    rw [hs] at hx
    unfold cellCentre at hx
    rw [h0 c hc (by simpa using hf), abs_le] at hx
    norm_num at hx
  · intro o ho hf
    unfold dist3 cellCentre
    apply Real.le_sqrt_of_sq_le
    rw [h0 o ho hf, hs]
    simp only [Matrix.cons_val_zero, Int.cast_zero]
    nlinarith [sq_nonneg ((![11 / 4, 1 / 2, 1 / 2] : Vec ℝ) 1 - ((o 1 : ℝ) * 1 + 1 / 2)),
      sq_nonneg ((![11 / 4, 1 / 2, 1 / 2] : Vec ℝ) 2 - ((o 2 : ℝ) * 1 + 1 / 2))]

end VGT
