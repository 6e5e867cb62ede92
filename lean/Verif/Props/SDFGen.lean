import Verif.Lemmas.SDFGen2

/-!
Properties C01–C07: signed distance field generation.

Reading guide.  `GenRuns ro d res isFilled oob r` / `GridGenRuns ro g isFilled border oob r` say that `r` is
a possible outcome of `ExtractSignedDistanceField` under some thread count, work split and interleaving
(`none` = exception).  `ro` holds the rounding functions.  `sqDist A i` is the squared distance, in cells, from
`i` to the nearest element of `A` (`⊤` iff `A` is empty), `scaled r c res D` is `res * sqrt D` rounded.
-/
set_option autoImplicit false

namespace VGT
open VGT.EDT VGT.Par VGT.Spec

/-! ### Concrete instances used to show that hypotheses can be met -/

/-- Exact arithmetic. -/
def exactRounding : Rounding := { rq := id, rr := id, cast := id }

theorem exact_rq : IsDoubleRounding exactRounding.rq where
  mono := fun _ _ h => h
  exactInt := fun _ _ => rfl
  exactDyadic := fun _ _ => rfl

theorem exact_rr : IsRounding exactRounding.rr where
  mono := fun _ _ h => h
  zero := rfl
  one := rfl
  neg := fun _ => rfl
  idem := fun _ => rfl

/-- A 12×3×1 grid with cell size 1/4. -/
noncomputable def exGrid : GridInfo := { dims := ⟨12, 3, 1⟩, sx := 1 / 4, sy := 1 / 4, sz := 1 / 4 }

theorem exGrid_ok : GenOK exactRounding exGrid where
  rq := exact_rq
  rr := exact_rr
  rc := exact_rr
  uniform := ⟨rfl, rfl⟩
  res := by norm_num [exGrid]
  repr := rfl
  castPos := by norm_num [exGrid, exactRounding]
  fits := by constructor <;> decide

/-- One filled cell, (2,1,0). -/
def exFilled : ZIdx → Option Bool := fun i => some (decide (i = (2, 1, 0)))
def exB : Idx → Bool := fun i => decide (i = (2, 1, 0))

theorem exFilled_eq : ∀ i, exGrid.dims.In i → exFilled (toZ i) = some (exB i) := by
  rintro ⟨x, y, z⟩ _
  simp only [exFilled, VGT.toZ, exB, Prod.mk.injEq, Option.some.injEq, decide_eq_decide]
  omega

/-! ### C01 -/

/-- C01. Every possible outcome of `ExtractSignedDistanceField` (no virtual border) is a field that
holds, at every free cell, resolution × distance to the nearest filled cell, and at every filled cell the
negated resolution × distance to the nearest free cell (infinite if there is no such cell).  The distance
itself is exact although the transform works in rounded binary64; the only rounding left is that of the
square root, the product and the cast. -/
theorem C01_sdf_is_exact_distance {ro : Rounding} {d : Dims} {res : ℝ}
    (hq : IsDoubleRounding ro.rq) (hr : IsRounding ro.rr) (hc : IsRounding ro.cast) (hres : 0 < res)
    (hd : Fits d) {isFilled : ZIdx → Option Bool} {filled : Idx → Bool}
    (hf : ∀ i, d.In i → isFilled (toZ i) = some (filled i)) {oob : Rl} {r : Option (Idx → Rl)}
    (hrun : GenRuns ro d res isFilled oob r) :
    ∃ out, r = some out ∧ (∀ i, ¬ d.In i → out i = oob) ∧ ∀ i, d.In i →
      (filled i = false → out i = scaled ro.rr ro.cast res (sqDist {p | d.In p ∧ filled p = true} i)) ∧
      (filled i = true → out i = (scaled ro.rr ro.cast res (sqDist {p | d.In p ∧ filled p = false} i)).neg) := by
  obtain ⟨out, h1, h2, h3⟩ := genRuns_eq hq hr hc hres hd hf hrun
  refine ⟨out, h1, h2, fun i hi => ⟨fun h => ?_, fun h => ?_⟩⟩
  · rw [h3 i hi, h]; simp
  · rw [h3 i hi, h]; simp

/-- C01, exact arithmetic after the transform: the stored value is a plain real number. -/
theorem C01_sdf_exact_real {ro : Rounding} {d : Dims} {res : ℝ}
    (hq : IsDoubleRounding ro.rq) (hr : ro.rr = id) (hc : ro.cast = id) (hres : 0 < res)
    (hd : Fits d) {isFilled : ZIdx → Option Bool} {filled : Idx → Bool}
    (hf : ∀ i, d.In i → isFilled (toZ i) = some (filled i)) {oob : Rl} {r : Option (Idx → Rl)}
    (hrun : GenRuns ro d res isFilled oob r) :
    ∃ out, r = some out ∧ ∀ i, d.In i →
      (filled i = false →
        ((∀ p, d.In p → filled p = false) ∧ out i = .pinf) ∨
        ∃ p, d.In p ∧ filled p = true ∧ (∀ p', d.In p' → filled p' = true → sq3 i p ≤ sq3 i p') ∧
          out i = .fin (Real.sqrt (sq3 i p) * res)) ∧
      (filled i = true →
        ((∀ p, d.In p → filled p = true) ∧ out i = .ninf) ∨
        ∃ p, d.In p ∧ filled p = false ∧ (∀ p', d.In p' → filled p' = false → sq3 i p ≤ sq3 i p') ∧
          out i = .fin (-(Real.sqrt (sq3 i p) * res))) := by
  have hid : IsRounding (id : ℝ → ℝ) := ⟨fun _ _ h => h, rfl, rfl, fun _ => rfl, fun _ => rfl⟩
  obtain ⟨out, h1, _, h3⟩ := C01_sdf_is_exact_distance hq (hr ▸ hid) (hc ▸ hid) hres hd hf hrun
  refine ⟨out, h1, fun i hi => ⟨fun h => ?_, fun h => ?_⟩⟩
  · have e := (h3 i hi).1 h
    rw [hr, hc] at e
    cases hD : sqDist {p | d.In p ∧ filled p = true} i using ENat.recTopCoe with
    | top =>
      left
      rw [hD, scaled_top] at e
      refine ⟨fun p hp => ?_, e⟩
      have := Set.eq_empty_iff_forall_notMem.1 (sqDist_top.1 hD) p
      simpa [hp] using this
    | coe n =>
      right
      rw [hD, scaled_coe] at e
      obtain ⟨⟨p, hp, hn⟩, hle⟩ := sqDist_coe.1 hD
      exact ⟨p, hp.1, hp.2, fun p' h' h'' => hn ▸ hle p' ⟨h', h''⟩, by rw [e, hn]; simp⟩
  · have e := (h3 i hi).2 h
    rw [hr, hc] at e
    cases hD : sqDist {p | d.In p ∧ filled p = false} i using ENat.recTopCoe with
    | top =>
      left
      rw [hD, scaled_top] at e
      refine ⟨fun p hp => ?_, e⟩
      have := Set.eq_empty_iff_forall_notMem.1 (sqDist_top.1 hD) p
      simpa [hp] using this
    | coe n =>
      right
      rw [hD, scaled_coe] at e
      obtain ⟨⟨p, hp, hn⟩, hle⟩ := sqDist_coe.1 hD
      exact ⟨p, hp.1, hp.2, fun p' h' h'' => hn ▸ hle p' ⟨h', h''⟩, by rw [e, hn]; simp [Rl.neg]⟩

/-- Generation has an outcome (it does not get stuck or run out of its scratch memory). -/
theorem C01_generation_total {ro : Rounding} {d : Dims} (res : ℝ) (hq : IsDoubleRounding ro.rq) (hd : Fits d)
    (isFilled : ZIdx → Option Bool) (oob : Rl) : ∃ r, GenRuns ro d res isFilled oob r :=
  genRuns_exists hq hd isFilled oob

/-- Concrete case on a 12×3×1 grid (the x axis uses the lower-envelope algorithm, the y axis brute
force, z is skipped): cell (11,0,0) holds sqrt(82) / 4. -/
example : ∃ out, GenRuns exactRounding exGrid.dims exGrid.sx exFilled (.fin 0) (some out) ∧
    out (11, 0, 0) = .fin (Real.sqrt 82 * (1 / 4)) ∧ out (2, 1, 0) = .fin (-(1 / 4)) := by
  obtain ⟨r, hr⟩ := C01_generation_total (d := exGrid.dims) exGrid.sx exact_rq exGrid_ok.fits.of_enlarge exFilled (.fin 0)
  obtain ⟨out, rfl, _, h⟩ := C01_sdf_is_exact_distance exact_rq exact_rr exact_rr exGrid_ok.res
    exGrid_ok.fits.of_enlarge exFilled_eq hr
  refine ⟨out, hr, ?_, ?_⟩
  · rw [(h (11, 0, 0) (by decide)).1 (by decide)]
    have : sqDist {p | exGrid.dims.In p ∧ exB p = true} (11, 0, 0) = (82 : ℕ) := by
      rw [sqDist_coe]
      refine ⟨⟨(2, 1, 0), ⟨by decide, by decide⟩, by decide⟩, ?_⟩
      rintro p ⟨_, hp⟩
      simp only [exB, decide_eq_true_eq] at hp
      subst hp
      decide
    rw [this, scaled_coe]
    simp [exactRounding, exGrid]
  · rw [(h (2, 1, 0) (by decide)).2 (by decide)]
    have : sqDist {p | exGrid.dims.In p ∧ exB p = false} (2, 1, 0) = (1 : ℕ) := by
      rw [sqDist_coe]
      refine ⟨⟨(1, 1, 0), ⟨by decide, by decide⟩, by decide⟩, ?_⟩
      rintro p ⟨_, hp⟩
      apply sq3_pos
      rintro rfl
      simp [exB] at hp
    rw [this, scaled_coe]
    simp [exactRounding, exGrid, Rl.neg]

/-! ### C02 -/

/-- C02. The transform has at most one outcome, over all thread counts, work splits and interleavings,
for any rounding and any input field. -/
theorem C02_transform_schedule_independent {rnd : ℚ → ℚ} {d : Dims} {f a b : Fld}
    (ha : TransformRuns rnd d f a) (hb : TransformRuns rnd d f b) : a = b := transformRuns_det ha hb

/-- C02. It is the outcome of the single-threaded in-order run. -/
theorem C02_parallel_eq_sequential {rnd : ℚ → ℚ} {d : Dims} {f s a : Fld}
    (hs : transformSeq rnd d f = some s) (ha : TransformRuns rnd d f a) : a = s :=
  transformRuns_det ha (transformSeq_runs hs)

/-- C02. The generated SDF (with or without border, including whether an exception is thrown) does not
depend on the schedule. -/
theorem C02_sdf_schedule_independent {ro : Rounding} {g : GridInfo} {isFilled : ZIdx → Option Bool} {border : Bool}
    {oob : Rl} {r1 r2 : Option (Idx → Rl)} (h1 : GridGenRuns ro g isFilled border oob r1)
    (h2 : GridGenRuns ro g isFilled border oob r2) : r1 = r2 := gridRuns_det h1 h2

/-- The cell a thread is about to read or write. -/
def nextCell {I V : Type} : Prog I V → Option I
  | .done => none
  | .read i _ => some i
  | .write i _ _ => some i
  | .ub => none

theorem nextCell_foot {I V : Type} [DecidableEq I] {F : I → Prop} {p : Prog I V} (h : p.InFoot F) {i : I}
    (hi : nextCell p = some i) : F i := by
  cases p <;> simp_all [nextCell, Prog.InFoot]

/-- C02. No data race: in every reachable state of a pass (here X; Y and Z below) two different threads
are never about to access the same cell. -/
theorem C02_no_race_x {rnd : ℚ → ℚ} {d : Dims} {f : Fld} {split : List (List ℕ)} (hs : IsSplit (d.ny * d.nz) split)
    (sched : List ℕ) {t t' : ℕ} (hne : t ≠ t') {p p' : Prog Idx Fl}
    (hp : (runSched { threads := split.map (threadProg (xWork rnd d)), mem := f } sched).threads[t]? = some p)
    (hp' : (runSched { threads := split.map (threadProg (xWork rnd d)), mem := f } sched).threads[t']? = some p')
    {i : Idx} (hi : nextCell p = some i) : nextCell p' ≠ some i := by
  have h := iinv_run (split_disjoint (xLines d) hs) sched (iinv_init (m := f) (split_hfoot (rnd := rnd) split))
  exact fun hi' => split_disjoint (xLines d) hs t t' i hne (nextCell_foot (h.foot t p hp) hi)
    (nextCell_foot (h.foot t' p' hp') hi')

theorem C02_no_race_y {rnd : ℚ → ℚ} {d : Dims} {f : Fld} {split : List (List ℕ)} (hs : IsSplit (d.nx * d.nz) split)
    (sched : List ℕ) {t t' : ℕ} (hne : t ≠ t') {p p' : Prog Idx Fl}
    (hp : (runSched { threads := split.map (threadProg (yWork rnd d)), mem := f } sched).threads[t]? = some p)
    (hp' : (runSched { threads := split.map (threadProg (yWork rnd d)), mem := f } sched).threads[t']? = some p')
    {i : Idx} (hi : nextCell p = some i) : nextCell p' ≠ some i := by
  have h := iinv_run (split_disjoint (yLines d) hs) sched (iinv_init (m := f) (split_hfoot (rnd := rnd) split))
  exact fun hi' => split_disjoint (yLines d) hs t t' i hne (nextCell_foot (h.foot t p hp) hi)
    (nextCell_foot (h.foot t' p' hp') hi')

theorem C02_no_race_z {rnd : ℚ → ℚ} {d : Dims} {f : Fld} {split : List (List ℕ)} (hs : IsSplit (d.nx * d.ny) split)
    (sched : List ℕ) {t t' : ℕ} (hne : t ≠ t') {p p' : Prog Idx Fl}
    (hp : (runSched { threads := split.map (threadProg (zWork rnd d)), mem := f } sched).threads[t]? = some p)
    (hp' : (runSched { threads := split.map (threadProg (zWork rnd d)), mem := f } sched).threads[t']? = some p')
    {i : Idx} (hi : nextCell p = some i) : nextCell p' ≠ some i := by
  have h := iinv_run (split_disjoint (zLines d) hs) sched (iinv_init (m := f) (split_hfoot (rnd := rnd) split))
  exact fun hi' => split_disjoint (zLines d) hs t t' i hne (nextCell_foot (h.foot t p hp) hi)
    (nextCell_foot (h.foot t' p' hp') hi')

/-- A field on a 2×3×1 grid for the examples. -/
def exFld : Fld := fun i => if i = (1, 2, 0) then .fin 0 else .pinf

/-- Concrete case: two threads on the X pass of a 2×3×1 grid, work split 2 / 1, a schedule that
alternates between them. -/
example : IsSplit (3 * 1) [[0, 2], [1]] ∧
    finished (runSched { threads := [[0, 2], [1]].map (threadProg (xWork id ⟨2, 3, 1⟩)), mem := exFld }
      ((List.range 20).map (· % 2))) := by
  constructor
  · unfold IsSplit; decide
  · intro p hp
    have hall : (runSched { threads := [[0, 2], [1]].map (threadProg (xWork id ⟨2, 3, 1⟩)), mem := exFld }
      ((List.range 20).map (· % 2))).threads.all (fun p => match p with | .done => true | _ => false) = true := by
      decide +kernel
    have := List.all_eq_true.1 hall p hp
    cases p <;> simp_all

/-- Concrete case: the sequential run gives the squared distances. -/
example : (transformSeq id ⟨2, 3, 1⟩ exFld).map (fun g => [g (0, 0, 0), g (0, 2, 0), g (1, 1, 0)]) =
    some [.fin 5, .fin 1, .fin 1] := by decide +kernel

/-! ### C03 -/

/-- C03. Free cells hold at least one resolution, filled cells at most minus one resolution (both in the
SDF scalar type); nothing is 0 or NaN.  For every rounding satisfying `GenOK`. -/
theorem C03_sign_and_magnitude {ro : Rounding} {g : GridInfo} (hok : GenOK ro g)
    {isFilled : ZIdx → Option Bool} {filled : Idx → Bool}
    (hf : ∀ i, g.dims.In i → isFilled (toZ i) = some (filled i)) {border : Bool} {oob : Rl} {r : Option (Idx → Rl)}
    (hrun : GridGenRuns ro g isFilled border oob r) :
    ∃ out, r = some out ∧ ∀ i, g.dims.In i →
      (filled i = false → Rl.le (.fin (ro.cast g.sx)) (out i)) ∧
      (filled i = true → Rl.le (out i) (.fin (-(ro.cast g.sx)))) ∧
      out i ≠ .nan ∧ out i ≠ .fin 0 := by
  obtain ⟨out, h1, _, h3⟩ := gridRuns_eq hok hf hrun
  refine ⟨out, h1, fun i hi => ?_⟩
  rw [h3 i hi]
  have hp := hok.castPos
  cases hb : filled i with
  | false =>
    simp only [Bool.false_eq_true, if_false]
    have hge := scaled_ge hok.rr hok.rc hok.res hok.repr
      (sqDistZ_pos (not_mem_targets (border := border) hi (v := true) (b := filled) (by rw [hb]; decide)))
    refine ⟨fun _ => hge, by simp, scaled_ne_nan _ _ _, ?_⟩
    intro h0
    rw [h0] at hge
    simp only [Rl.le] at hge
    linarith
  | true =>
    simp only [if_true]
    have hge := scaled_ge hok.rr hok.rc hok.res hok.repr
      (sqDistZ_pos (not_mem_targets (border := border) hi (v := false) (b := filled) (by rw [hb]; decide)))
    have hle := neg_le hge
    refine ⟨by simp, fun _ => hle, ?_, ?_⟩
    · intro hn
      rw [hn] at hle
      exact hle
    · intro h0
      rw [h0] at hle
      simp only [Rl.le, Rl.neg] at hle
      linarith

/-- Concrete case (all cells free, so the filled set is empty). -/
example : ∃ out, GridGenRuns exactRounding exGrid (fun _ => some false) false (.fin 0) (some out) ∧
    out (0, 0, 0) = .pinf := by
  obtain ⟨r, hr⟩ := gridRuns_exists exGrid_ok (fun _ => some false) false (.fin 0)
  obtain ⟨out, rfl, _, h⟩ := gridRuns_eq (b := fun _ => false) exGrid_ok (fun _ _ => rfl) hr
  refine ⟨out, hr, ?_⟩
  rw [h (0, 0, 0) (by decide)]
  have : sqDistZ (targets exGrid.dims false (fun _ => false) true) (toZ (0, 0, 0)) = ⊤ := by
    rw [sqDistZ_top]; ext z; simp [targets]
  simp [this, scaled_top]

/-! ### C04 -/

/-- C04. With a virtual border: free cells hold the distance to the nearest filled cell or point outside
the grid, filled cells the negated distance to the nearest free cell or point outside, where "outside" is
seen only along axes with more than one cell. -/
theorem C04_virtual_border {ro : Rounding} {g : GridInfo} (hok : GenOK ro g)
    {isFilled : ZIdx → Option Bool} {filled : Idx → Bool}
    (hf : ∀ i, g.dims.In i → isFilled (toZ i) = some (filled i)) {oob : Rl} {r : Option (Idx → Rl)}
    (hrun : GridGenRuns ro g isFilled true oob r) :
    ∃ out, r = some out ∧ (∀ i, ¬ g.dims.In i → out i = oob) ∧ ∀ i, g.dims.In i →
      (filled i = false → out i = scaled ro.rr ro.cast g.sx
        (sqDistZ ({z | ∃ p, g.dims.In p ∧ filled p = true ∧ z = toZ p} ∪ Outside g.dims.nx g.dims.ny g.dims.nz) (toZ i))) ∧
      (filled i = true → out i = (scaled ro.rr ro.cast g.sx
        (sqDistZ ({z | ∃ p, g.dims.In p ∧ filled p = false ∧ z = toZ p} ∪ Outside g.dims.nx g.dims.ny g.dims.nz) (toZ i))).neg) := by
  obtain ⟨out, h1, h2, h3⟩ := borderRuns_eq hok.rq hok.rr hok.rc hok.castPos hok.repr hok.uniform hok.res hok.fits hf hrun
  refine ⟨out, h1, h2, fun i hi => ⟨fun h => ?_, fun h => ?_⟩⟩
  · rw [h3 i hi, h]; simp
  · rw [h3 i hi, h]; simp

/-- C04. The bordered value is never 0 and is finite as soon as one axis has more than one cell. -/
theorem C04_border_finite_nonzero {ro : Rounding} {g : GridInfo} (hok : GenOK ro g)
    {isFilled : ZIdx → Option Bool} {filled : Idx → Bool}
    (hf : ∀ i, g.dims.In i → isFilled (toZ i) = some (filled i)) {oob : Rl} {r : Option (Idx → Rl)}
    (hrun : GridGenRuns ro g isFilled true oob r)
    (hbig : 1 < g.dims.nx ∨ 1 < g.dims.ny ∨ 1 < g.dims.nz) :
    ∃ out, r = some out ∧ ∀ i, g.dims.In i → ∃ x : ℝ, out i = .fin x ∧ x ≠ 0 := by
  obtain ⟨out, h1, _, h3⟩ := C04_virtual_border hok hf hrun
  obtain ⟨out', h1', h3'⟩ := C03_sign_and_magnitude hok hf hrun
  rw [h1] at h1'
  cases h1'
  refine ⟨out, h1, fun i hi => ?_⟩
  have hne : ∀ A : Set ZIdx, sqDistZ (A ∪ Outside g.dims.nx g.dims.ny g.dims.nz) (toZ i) ≠ ⊤ := by
    intro A h
    have he := sqDistZ_top.1 h
    have hz : ((if 1 < g.dims.nx then -1 else 0, if 1 < g.dims.ny then -1 else 0, if 1 < g.dims.nz then -1 else 0) : ZIdx) ∈
        A ∪ Outside g.dims.nx g.dims.ny g.dims.nz := by
      right
      refine ⟨?_, ?_, ?_, ?_⟩
      · intro h; simp [not_lt.2 h]
      · intro h; simp [not_lt.2 h]
      · intro h; simp [not_lt.2 h]
      · simp only
        intro hin
        rcases hbig with h | h | h
        · simp [h] at hin
        · simp [h] at hin
        · simp [h] at hin
    rw [he] at hz
    exact hz
  have hz := (h3' i hi).2.2.2
  cases hb : filled i with
  | false =>
    have e := (h3 i hi).1 hb
    cases hD : sqDistZ ({z | ∃ p, g.dims.In p ∧ filled p = true ∧ z = toZ p} ∪ Outside g.dims.nx g.dims.ny g.dims.nz) (toZ i)
      using ENat.recTopCoe with
    | top => exact absurd hD (hne _)
    | coe n =>
      rw [hD, scaled_coe] at e
      exact ⟨_, e, fun h => hz (by rw [e, h])⟩
  | true =>
    have e := (h3 i hi).2 hb
    cases hD : sqDistZ ({z | ∃ p, g.dims.In p ∧ filled p = false ∧ z = toZ p} ∪ Outside g.dims.nx g.dims.ny g.dims.nz) (toZ i)
      using ENat.recTopCoe with
    | top => exact absurd hD (hne _)
    | coe n =>
      rw [hD, scaled_coe] at e
      exact ⟨_, e, fun h => hz (by rw [e]; simp only [Rl.neg] at h ⊢; rw [h])⟩

/-- Concrete case: an all-free 12×3×1 grid with border; cell (5,1,0) is 2 cells from the border in y, and
z (one cell) contributes no border. -/
example : ∃ out, GridGenRuns exactRounding exGrid (fun _ => some false) true (.fin 0) (some out) ∧
    out (5, 1, 0) = .fin (2 * (1 / 4)) := by
  obtain ⟨r, hr⟩ := gridRuns_exists exGrid_ok (fun _ => some false) true (.fin 0)
  obtain ⟨out, rfl, _, h⟩ := C04_virtual_border (filled := fun _ => false) exGrid_ok (fun _ _ => rfl) hr
  refine ⟨out, hr, ?_⟩
  rw [(h (5, 1, 0) (by decide)).1 rfl]
  have : sqDistZ ({z | ∃ p, exGrid.dims.In p ∧ false = true ∧ z = toZ p} ∪
      Outside exGrid.dims.nx exGrid.dims.ny exGrid.dims.nz) (toZ (5, 1, 0)) = (4 : ℕ) := by
    rw [sqDistZ_coe]
    refine ⟨⟨(5, -1, 0), Or.inr (by simp [Outside, exGrid]), by decide⟩, ?_⟩
    rintro ⟨x, y, z⟩ (⟨p, _, hp, _⟩ | ⟨_, _, hz, hout⟩)
    · simp at hp
    · simp only [exGrid] at hz hout
      have := hz (by decide)
      subst this
      have hs := natAbs_sq_sum (5 - x) (1 - y) (0 - 0)
      have h4 : (4 : ℤ) ≤ ((((5 - x) ^ 2 + (1 - y) ^ 2 + (0 - 0) ^ 2).natAbs : ℕ) : ℤ) := by
        rw [hs]
        rcases lt_or_ge y 0 with hy | hy
        · nlinarith [sq_nonneg (5 - x)]
        · rcases lt_or_ge y 3 with hy3 | hy3
          · rcases lt_or_ge x 0 with hx | hx
            · nlinarith [sq_nonneg (1 - y)]
            · have : 12 ≤ x := by
                by_contra hc
                apply hout
                refine ⟨hx, ?_, hy, ?_, le_refl _, ?_⟩ <;> push_cast <;> omega
              nlinarith [sq_nonneg (1 - y)]
          · nlinarith [sq_nonneg (5 - x)]
      exact_mod_cast h4
  rw [this, scaled_coe]
  have h2 : Real.sqrt ((4 : ℕ) : ℝ) = 2 := by
    rw [show ((4 : ℕ) : ℝ) = 2 ^ 2 by norm_num, Real.sqrt_sq (by norm_num)]
  rw [h2]
  simp [exactRounding, exGrid]

/-! ### C05 -/

/-- C05. Swapping filled and free negates every value, with and without virtual border. -/
theorem C05_complement_negates {ro : Rounding} {g : GridInfo} (hok : GenOK ro g)
    {isFilled isFilled' : ZIdx → Option Bool} {filled : Idx → Bool}
    (hf : ∀ i, g.dims.In i → isFilled (toZ i) = some (filled i))
    (hf' : ∀ i, g.dims.In i → isFilled' (toZ i) = some (!filled i)) {border : Bool} {oob oob' : Rl}
    {r r' : Option (Idx → Rl)}
    (hrun : GridGenRuns ro g isFilled border oob r) (hrun' : GridGenRuns ro g isFilled' border oob' r') :
    ∃ out out', r = some out ∧ r' = some out' ∧ ∀ i, g.dims.In i → out' i = (out i).neg := by
  obtain ⟨out, h1, _, h3⟩ := gridRuns_eq hok hf hrun
  obtain ⟨out', h1', _, h3'⟩ := gridRuns_eq hok hf' hrun'
  refine ⟨out, out', h1, h1', fun i hi => ?_⟩
  rw [h3 i hi, h3' i hi]
  have ht : ∀ v, targets g.dims border (fun i => !filled i) v = targets g.dims border filled (!v) := by
    intro v
    ext z
    simp only [targets, Set.mem_union, Set.mem_ofPred_eq]
    have : ∀ p, ((!filled p) = v) = (filled p = !v) := by
      intro p; cases filled p <;> cases v <;> simp
    simp only [this]
  rw [ht, ht]
  cases filled i <;> simp [neg_neg]

example : ∃ out out', GridGenRuns exactRounding exGrid exFilled true (.fin 0) (some out) ∧
    GridGenRuns exactRounding exGrid (fun i => (exFilled i).map (!·)) true (.fin 0) (some out') ∧
    out' (2, 1, 0) = (out (2, 1, 0)).neg := by
  obtain ⟨r, hr⟩ := gridRuns_exists exGrid_ok exFilled true (.fin 0)
  obtain ⟨r', hr'⟩ := gridRuns_exists exGrid_ok (fun i => (exFilled i).map (!·)) true (.fin 0)
  obtain ⟨out, out', rfl, rfl, h⟩ := C05_complement_negates exGrid_ok exFilled_eq
    (fun i hi => by simp [exFilled_eq i hi]) hr hr'
  exact ⟨out, out', hr, hr', h _ (by decide)⟩

/-! ### C06 -/

/-- C06. Filling more cells never increases a value, with and without virtual border. -/
theorem C06_monotone_in_filled {ro : Rounding} {g : GridInfo} (hok : GenOK ro g)
    {isFilled isFilled' : ZIdx → Option Bool} {filled filled' : Idx → Bool}
    (hf : ∀ i, g.dims.In i → isFilled (toZ i) = some (filled i))
    (hf' : ∀ i, g.dims.In i → isFilled' (toZ i) = some (filled' i))
    (hsub : ∀ i, g.dims.In i → filled i = true → filled' i = true) {border : Bool} {oob oob' : Rl}
    {r r' : Option (Idx → Rl)}
    (hrun : GridGenRuns ro g isFilled border oob r) (hrun' : GridGenRuns ro g isFilled' border oob' r') :
    ∃ out out', r = some out ∧ r' = some out' ∧ ∀ i, g.dims.In i → Rl.le (out' i) (out i) := by
  obtain ⟨out, h1, _, h3⟩ := gridRuns_eq hok hf hrun
  obtain ⟨out', h1', _, h3'⟩ := gridRuns_eq hok hf' hrun'
  refine ⟨out, out', h1, h1', fun i hi => ?_⟩
  rw [h3 i hi, h3' i hi]
  have ht : targets g.dims border filled true ⊆ targets g.dims border filled' true := by
    rintro z (⟨p, hp, hb, hz⟩ | h)
    · exact Or.inl ⟨p, hp, hsub p hp hb, hz⟩
    · exact Or.inr h
  have hf : targets g.dims border filled' false ⊆ targets g.dims border filled false := by
    rintro z (⟨p, hp, hb, hz⟩ | h)
    · refine Or.inl ⟨p, hp, ?_, hz⟩
      cases hfp : filled p with
      | false => rfl
      | true => rw [hsub p hp hfp] at hb; cases hb
    · exact Or.inr h
  cases hb : filled i with
  | true =>
    rw [hsub i hi hb]
    simp only [if_true]
    exact neg_le (scaled_le hok.rr hok.rc hok.res (sqDistZ_anti hf _))
  | false =>
    cases hb' : filled' i with
    | false =>
      simp only [Bool.false_eq_true, if_false]
      exact scaled_le hok.rr hok.rc hok.res (sqDistZ_anti ht _)
    | true =>
      simp only [Bool.false_eq_true, if_false, if_true]
      exact Rl.le_trans' (neg_scaled_le_zero hok.rr hok.rc hok.res _) (scaled_nonneg hok.rr hok.rc hok.res _)

example : ∃ out out', GridGenRuns exactRounding exGrid exFilled false (.fin 0) (some out) ∧
    GridGenRuns exactRounding exGrid (fun _ => some true) false (.fin 0) (some out') ∧
    Rl.le (out' (0, 0, 0)) (out (0, 0, 0)) := by
  obtain ⟨r, hr⟩ := gridRuns_exists exGrid_ok exFilled false (.fin 0)
  obtain ⟨r', hr'⟩ := gridRuns_exists exGrid_ok (fun _ => some true) false (.fin 0)
  obtain ⟨out, out', rfl, rfl, h⟩ := C06_monotone_in_filled (filled' := fun _ => true) exGrid_ok exFilled_eq
    (fun _ _ => rfl) (fun _ _ _ => rfl) hr hr'
  exact ⟨out, out', hr, hr', h _ (by decide)⟩

/-! ### C07 -/

/-- C07 (exact arithmetic after the transform).  Same side: values differ by at most resolution ×
distance between the cells, or are both infinite.  Opposite sides: both magnitudes are positive and at
most resolution × distance; for face neighbours they are exactly the resolution. -/
theorem C07_lipschitz {ro : Rounding} {g : GridInfo} (hok : GenOK ro g) (hr : ro.rr = id) (hc : ro.cast = id)
    {isFilled : ZIdx → Option Bool} {filled : Idx → Bool}
    (hf : ∀ i, g.dims.In i → isFilled (toZ i) = some (filled i)) {border : Bool} {oob : Rl} {r : Option (Idx → Rl)}
    (hrun : GridGenRuns ro g isFilled border oob r) :
    ∃ out, r = some out ∧ ∀ i j, g.dims.In i → g.dims.In j →
      (filled i = filled j →
        (out i = out j ∧ (out i = .pinf ∨ out i = .ninf)) ∨
        ∃ a b, out i = .fin a ∧ out j = .fin b ∧ |a - b| ≤ Real.sqrt (sq3 i j) * g.sx) ∧
      (filled i = false → filled j = true →
        ∃ a b, out i = .fin a ∧ out j = .fin (-b) ∧ 0 < a ∧ 0 < b ∧
          a ≤ Real.sqrt (sq3 i j) * g.sx ∧ b ≤ Real.sqrt (sq3 i j) * g.sx ∧
          (sq3 i j = 1 → a = g.sx ∧ b = g.sx)) := by
  obtain ⟨out, h1, _, h3⟩ := gridRuns_eq hok hf hrun
  refine ⟨out, h1, fun i j hi hj => ⟨fun hij => ?_, fun hi0 hj1 => ?_⟩⟩
  · rw [h3 i hi, h3 j hj, ← hij, hr, hc]
    have key : ∀ v, (sqDistZ (targets g.dims border filled v) (toZ i) = ⊤ ∧
        sqDistZ (targets g.dims border filled v) (toZ j) = ⊤) ∨
        ∃ m n : ℕ, sqDistZ (targets g.dims border filled v) (toZ i) = m ∧
          sqDistZ (targets g.dims border filled v) (toZ j) = n ∧ |Real.sqrt m - Real.sqrt n| ≤ Real.sqrt (sq3 i j) := by
      intro v
      cases hm : sqDistZ (targets g.dims border filled v) (toZ i) using ENat.recTopCoe with
      | top => exact Or.inl ⟨rfl, sqDistZ_top.2 (sqDistZ_top.1 hm)⟩
      | coe m =>
        cases hn : sqDistZ (targets g.dims border filled v) (toZ j) using ENat.recTopCoe with
        | top =>
          have := (sqDistZ_top (q := toZ i)).2 (sqDistZ_top.1 hn)
          rw [this] at hm
          exact absurd hm.symm (ENat.natCast_ne_top m)
        | coe n =>
          refine Or.inr ⟨m, n, rfl, rfl, ?_⟩
          rw [sq3_toZ]
          exact sqDistZ_lip hm hn
    have hs := hok.res
    cases hb : filled i with
    | false =>
      simp only [Bool.false_eq_true, if_false]
      rcases key true with ⟨e1, e2⟩ | ⟨m, n, e1, e2, hle⟩
      · rw [e1, e2]; left; simp [scaled_top]
      · rw [e1, e2, scaled_coe, scaled_coe]
        refine Or.inr ⟨_, _, rfl, rfl, ?_⟩
        simp only [id]
        rw [← sub_mul, abs_mul, abs_of_pos hs]
        exact mul_le_mul_of_nonneg_right hle hs.le
    | true =>
      simp only [if_true]
      rcases key false with ⟨e1, e2⟩ | ⟨m, n, e1, e2, hle⟩
      · rw [e1, e2]; left; simp [scaled_top, Rl.neg]
      · rw [e1, e2, scaled_coe, scaled_coe]
        refine Or.inr ⟨_, _, rfl, rfl, ?_⟩
        simp only [id]
        rw [show ∀ a b : ℝ, -(a * g.sx) - -(b * g.sx) = -((a - b) * g.sx) by intros; ring, abs_neg, abs_mul,
          abs_of_pos hs]
        exact mul_le_mul_of_nonneg_right hle hs.le
  · rw [h3 i hi, h3 j hj, hi0, hj1, hr, hc]
    simp only [Bool.false_eq_true, if_false, if_true]
    have hs := hok.res
    have mi : toZ i ∈ targets g.dims border filled false := Or.inl ⟨i, hi, hi0, rfl⟩
    have mj : toZ j ∈ targets g.dims border filled true := Or.inl ⟨j, hj, hj1, rfl⟩
    have pi := sqDistZ_pos (not_mem_targets (border := border) hi (v := true) (b := filled) (by rw [hi0]; decide))
    have pj := sqDistZ_pos (not_mem_targets (border := border) hj (v := false) (b := filled) (by rw [hj1]; decide))
    have ui : sqDistZ (targets g.dims border filled true) (toZ i) ≤ (sq3 i j : ℕ) := by
      rw [sq3_toZ]; exact iInf₂_le _ mj
    have uj : sqDistZ (targets g.dims border filled false) (toZ j) ≤ (sq3 i j : ℕ) := by
      rw [sq3_toZ, sqz_comm]; exact iInf₂_le _ mi
    cases hm : sqDistZ (targets g.dims border filled true) (toZ i) using ENat.recTopCoe with
    | top => rw [hm] at ui; exact absurd (top_le_iff.1 ui) (ENat.natCast_ne_top _)
    | coe m =>
      cases hn : sqDistZ (targets g.dims border filled false) (toZ j) using ENat.recTopCoe with
      | top => rw [hn] at uj; exact absurd (top_le_iff.1 uj) (ENat.natCast_ne_top _)
      | coe n =>
        rw [hm] at ui pi
        rw [hn] at uj pj
        have ui' : m ≤ sq3 i j := by exact_mod_cast ui
        have uj' : n ≤ sq3 i j := by exact_mod_cast uj
        have pi' : 1 ≤ m := by exact_mod_cast pi
        have pj' : 1 ≤ n := by exact_mod_cast pj
        rw [scaled_coe, scaled_coe]
        have sp : ∀ k : ℕ, 1 ≤ k → 0 < Real.sqrt k := fun k hk => Real.sqrt_pos.2 (by exact_mod_cast hk)
        have sl : ∀ k : ℕ, k ≤ sq3 i j → Real.sqrt k * g.sx ≤ Real.sqrt (sq3 i j) * g.sx := fun k hk =>
          mul_le_mul_of_nonneg_right (Real.sqrt_le_sqrt (by exact_mod_cast hk)) hs.le
        refine ⟨Real.sqrt m * g.sx, Real.sqrt n * g.sx, rfl, rfl, mul_pos (sp m pi') hs, mul_pos (sp n pj') hs,
          sl m ui', sl n uj', ?_⟩
        intro h1
        have em : m = 1 := by omega
        have en : n = 1 := by omega
        subst em en
        simp

/-- Concrete case: face neighbours (1,1,0) free and (2,1,0) filled hold exactly ±1/4. -/
example : ∃ out, GridGenRuns exactRounding exGrid exFilled false (.fin 0) (some out) ∧
    out (1, 1, 0) = .fin (1 / 4) ∧ out (2, 1, 0) = .fin (-(1 / 4)) := by
  obtain ⟨r, hr⟩ := gridRuns_exists exGrid_ok exFilled false (.fin 0)
  obtain ⟨out, rfl, h⟩ := C07_lipschitz exGrid_ok rfl rfl exFilled_eq hr
  obtain ⟨a, b, h1, h2, _, _, _, _, h3⟩ := (h (1, 1, 0) (2, 1, 0) (by decide) (by decide)).2 (by decide) (by decide)
  obtain ⟨rfl, rfl⟩ := h3 (by decide)
  exact ⟨out, hr, h1, h2⟩

end VGT
