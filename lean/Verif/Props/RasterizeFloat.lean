import Verif.Model.RasterizeFloat
import Verif.Lemmas.QueryRound
import Verif.Lemmas.Filter
import Verif.Props.Rasterize
import Verif.Props.RaycastFloat
import Verif.Props.QueryRound

/-!
C69: mesh rasterization in any arithmetic: what it writes, that order and schedule do not matter, when it throws; in exact
arithmetic it is the model of C42 and C43; new maps hold their mesh in spite of rounding.
C71: degenerate triangles and NaN.
-/
set_option autoImplicit false
set_option linter.unusedSectionVars false

namespace VGT
open VGT.EDT VGT.Spec

section
variable {F : Type} {A : RastArith F} {m : FlRastMap F}

theorem flMeshActs_some {enforce : Bool} {vertices : List (Fin 3 → F)} :
    ∀ {triangles : List (ℤ × ℤ × ℤ)} {acts : List (List RAct)}, flMeshActs A m enforce vertices triangles = some acts ↔
      List.Forall₂ (fun t a => flTriangleActs A m enforce vertices t = some a) triangles acts
  | [], acts => by
    simp only [flMeshActs, Option.some.injEq, List.forall₂_nil_left_iff]
    exact eq_comm
  | t :: ts, acts => by
    simp only [flMeshActs, Option.bind_eq_some_iff, Option.map_eq_some_iff]
    constructor
    · rintro ⟨a, ha, as, has, rfl⟩
      exact List.Forall₂.cons ha (flMeshActs_some.mp has)
    · intro h
      cases h with
      | cons ha has => exact ⟨_, ha, _, flMeshActs_some.mpr has, rfl⟩

/-- Some triangle of the mesh has the action. -/
def FlMeshActs (A : RastArith F) (m : FlRastMap F) (enforce : Bool) (vertices : List (Fin 3 → F))
    (triangles : List (ℤ × ℤ × ℤ)) (x : RAct) : Prop :=
  ∃ t ∈ triangles, ∃ a, flTriangleActs A m enforce vertices t = some a ∧ x ∈ a

theorem flMem_threads {enforce : Bool} {vertices : List (Fin 3 → F)} {triangles : List (ℤ × ℤ × ℤ)}
    {acts : List (List RAct)} (hacts : flMeshActs A m enforce vertices triangles = some acts) {split : List (List ℕ)}
    (hs : IsSplit triangles.length split) (x : RAct) :
    (∃ l0 ∈ split.map fun is => is.flatMap fun k => (acts[k]?).getD [.throw], x ∈ l0) ↔
      FlMeshActs A m enforce vertices triangles x := by
  have hf := flMeshActs_some.mp hacts
  have hlen := hf.length_eq
  have hk : ∀ k (h : k < triangles.length), flTriangleActs A m enforce vertices triangles[k] = some (acts[k]'(hlen ▸ h)) :=
    fun k h => hf.get (i := k) h (hlen ▸ h)
  constructor
  · rintro ⟨l0, hl0, ha⟩
    obtain ⟨is, his, rfl⟩ := List.mem_map.mp hl0
    obtain ⟨k, hkk, hak⟩ := List.mem_flatMap.mp ha
    have hlt : k < triangles.length := List.mem_range.mp (hs.subset (List.mem_flatten.mpr ⟨is, his, hkk⟩))
    rw [List.getElem?_eq_getElem (hlen ▸ hlt), Option.getD_some] at hak
    exact ⟨_, List.getElem_mem hlt, _, hk k hlt, hak⟩
  · rintro ⟨t, ht, a, hta, ha⟩
    obtain ⟨k, hlt, rfl⟩ := List.mem_iff_getElem.mp ht
    have hks : k ∈ split.flatten := hs.symm.subset (List.mem_range.mpr hlt)
    obtain ⟨is, his, hkis⟩ := List.mem_flatten.mp hks
    refine ⟨_, List.mem_map_of_mem his, List.mem_flatMap.mpr ⟨k, hkis, ?_⟩⟩
    rw [List.getElem?_eq_getElem (hlen ▸ hlt), Option.getD_some]
    rw [hk k hlt] at hta
    cases hta
    exact ha

/-- Every outcome on an initialized map. -/
theorem flMeshRuns_spec {enforce : Bool} {vertices : List (Fin 3 → F)} {triangles : List (ℤ × ℤ × ℤ)}
    {occ occ' : Idx → Fl} {threw : Bool} (hinit : m.initialized = true)
    (h : FlMeshRuns A m enforce vertices triangles occ threw occ') :
    (threw = true ↔ FlMeshActs A m enforce vertices triangles .throw) ∧
    (threw = false → ∀ j, FlMeshActs A m enforce vertices triangles (.fill j) → occ' j = .fin 1) ∧
    ∀ j, occ' j = occ j ∨ (occ' j = .fin 1 ∧ FlMeshActs A m enforce vertices triangles (.fill j)) := by
  unfold FlMeshRuns at h
  simp only [hinit, Bool.not_true, Bool.false_eq_true, if_false] at h
  obtain ⟨acts, hacts, split, hs, sched, hfin, rfl, rfl⟩ := h
  have := sched_spec _ occ sched hfin
  simp only [flMem_threads hacts hs] at this
  exact this

theorem mem_indexBox {lo hi : IVec} {i : ZIdx} : i ∈ indexBox lo hi ↔
    (lo 0 ≤ i.1 ∧ i.1 ≤ hi 0) ∧ (lo 1 ≤ i.2.1 ∧ i.2.1 ≤ hi 1) ∧ (lo 2 ≤ i.2.2 ∧ i.2.2 ≤ hi 2) := by
  simp only [indexBox, List.mem_flatMap, List.mem_map, mem_loopRange']
  constructor
  · rintro ⟨x, hx, y, hy, z, hz, rfl⟩
    exact ⟨hx, hy, hz⟩
  · rintro ⟨hx, hy, hz⟩
    exact ⟨i.1, hx, i.2.1, hy, i.2.2, hz, rfl⟩

theorem flTriangleActs_some {enforce : Bool} {vertices : List (Fin 3 → F)} {t : ℤ × ℤ × ℤ} {v1 v2 v3 : Fin 3 → F}
    (hc : corners vertices t = some (v1, v2, v3)) {acts : List RAct} :
    flTriangleActs A m enforce vertices t = some acts ↔ ∃ lo hi,
      flRastIndex A m (fun a => flMin3 A (v1 a) (v2 a) (v3 a)) = some lo ∧
      flRastIndex A m (fun a => flMax3 A (v1 a) (v2 a) (v3 a)) = some hi ∧
      acts = ((indexBox lo hi).filter fun i => flHit A m v1 v2 v3 i).flatMap fun i => actOn m.dims enforce i := by
  unfold flTriangleActs
  rw [hc]
  simp only [Option.bind_eq_some_iff, Option.map_eq_some_iff]
  constructor
  · rintro ⟨lo, hlo, hi, hhi, rfl⟩
    exact ⟨lo, hi, hlo, hhi, rfl⟩
  · rintro ⟨lo, hi, hlo, hhi, rfl⟩
    exact ⟨lo, hlo, hi, hhi, rfl⟩

theorem flTriangleActs_bad {enforce : Bool} {vertices : List (Fin 3 → F)} {t : ℤ × ℤ × ℤ}
    (hc : corners vertices t = none) : flTriangleActs A m enforce vertices t = some [.throw] := by
  unfold flTriangleActs
  rw [hc]

theorem actOn_fill {d : Dims} {enforce : Bool} {i : ZIdx} {j : Idx} :
    RAct.fill j ∈ actOn d enforce i ↔ d.In j ∧ i = toZ j := by
  unfold actOn
  constructor
  · intro h
    split_ifs at h with hb he
    · obtain ⟨k, hk, rfl⟩ := checkInBounds_iff.mp hb
      have : RAct.fill j = RAct.fill (toN (toZ k)) := by simpa using h
      have := RAct.fill.inj this
      have e : j = k := by simpa [toN, VGT.toZ] using this
      subst e
      exact ⟨hk, rfl⟩
    · simp at h
    · simp at h
  · rintro ⟨hj, rfl⟩
    rw [if_pos (checkInBounds_iff.mpr ⟨j, hj, rfl⟩)]
    simp [toN, VGT.toZ]

theorem actOn_throw {d : Dims} {enforce : Bool} {i : ZIdx} :
    RAct.throw ∈ actOn d enforce i ↔ enforce = true ∧ checkInBounds d i = false := by
  unfold actOn
  by_cases hb : checkInBounds d i = true
  · simp [hb]
  · cases enforce <;> simp [hb]

theorem corners_valid {vertices : List (Fin 3 → F)} {t : ℤ × ℤ × ℤ}
    (h : ∀ k, k = t.1 ∨ k = t.2.1 ∨ k = t.2.2 → 0 ≤ k ∧ k < vertices.length) :
    ∃ v1 v2 v3, corners vertices t = some (v1, v2, v3) ∧ v1 ∈ vertices ∧ v2 ∈ vertices ∧ v3 ∈ vertices := by
  have one : ∀ k : ℤ, 0 ≤ k ∧ k < vertices.length → ∃ v, vertexAt vertices k = some v ∧ v ∈ vertices := by
    rintro k ⟨h0, h1⟩
    have hlt : k.toNat < vertices.length := by omega
    exact ⟨vertices[k.toNat], by simp [vertexAt, h0, List.getElem?_eq_getElem hlt], List.getElem_mem hlt⟩
  obtain ⟨v1, e1, m1⟩ := one t.1 (h _ (Or.inl rfl))
  obtain ⟨v2, e2, m2⟩ := one t.2.1 (h _ (Or.inr (Or.inl rfl)))
  obtain ⟨v3, e3, m3⟩ := one t.2.2 (h _ (Or.inr (Or.inr rfl)))
  exact ⟨v1, v2, v3, by simp [corners, e1, e2, e3], m1, m2, m3⟩

/-! ### C69: any arithmetic -/

/-- Every outcome, also one that ends in an exception: a cell keeps its value or becomes 1.0, and only cells of the map
change. -/
theorem C69_only_fills {enforce : Bool} {vertices : List (Fin 3 → F)} {triangles : List (ℤ × ℤ × ℤ)}
    {occ occ' : Idx → Fl} {threw : Bool} (h : FlMeshRuns A m enforce vertices triangles occ threw occ') (j : Idx) :
    occ' j = occ j ∨ (occ' j = .fin 1 ∧ m.dims.In j) := by
  by_cases hi : m.initialized = true
  · rcases (flMeshRuns_spec hi h).2.2 j with h1 | ⟨h1, t, -, acts, ha, hf⟩
    · exact Or.inl h1
    · right
      refine ⟨h1, ?_⟩
      rcases hc : corners vertices t with _ | ⟨v1, v2, v3⟩
      · rw [flTriangleActs_bad hc] at ha
        cases ha
        simp at hf
      · obtain ⟨lo, hi, -, -, rfl⟩ := (flTriangleActs_some hc).mp ha
        obtain ⟨i, -, hf⟩ := List.mem_flatMap.mp hf
        exact (actOn_fill.mp hf).1
  · simp only [FlMeshRuns, hi] at h
    exact Or.inl (congrFun h.2 j)

/-- A cell that changes lies between the indices that the arithmetic gives the corners of the triangle's box. -/
theorem C69_only_in_the_box {enforce : Bool} {vertices : List (Fin 3 → F)} {triangles : List (ℤ × ℤ × ℤ)}
    {occ occ' : Idx → Fl} {threw : Bool} (h : FlMeshRuns A m enforce vertices triangles occ threw occ') {j : Idx}
    (hj : occ' j ≠ occ j) : ∃ t ∈ triangles, ∃ v1 v2 v3, corners vertices t = some (v1, v2, v3) ∧
      ∀ a : Fin 3, ∃ lo hi : ℤ,
        A.toInt (A.mul (m.toGrid (fun b => flMin3 A (v1 b) (v2 b) (v3 b)) a) m.inv) = some lo ∧
        A.toInt (A.mul (m.toGrid (fun b => flMax3 A (v1 b) (v2 b) (v3 b)) a) m.inv) = some hi ∧
        lo ≤ (![(j.1 : ℤ), j.2.1, j.2.2] : Fin 3 → ℤ) a ∧ (![(j.1 : ℤ), j.2.1, j.2.2] : Fin 3 → ℤ) a ≤ hi := by
  by_cases hinit : m.initialized = true
  · rcases (flMeshRuns_spec hinit h).2.2 j with h1 | ⟨h1, t, ht, acts, ha, hf⟩
    · exact absurd h1 hj
    · refine ⟨t, ht, ?_⟩
      rcases hc : corners vertices t with _ | ⟨v1, v2, v3⟩
      · rw [flTriangleActs_bad hc] at ha
        cases ha
        simp at hf
      · obtain ⟨lo, hi, hlo, hhi, rfl⟩ := (flTriangleActs_some hc).mp ha
        obtain ⟨i, hfi, hf⟩ := List.mem_flatMap.mp hf
        obtain ⟨-, rfl⟩ := actOn_fill.mp hf
        obtain ⟨b0, b1, b2⟩ := mem_indexBox.mp (List.mem_filter.mp hfi).1
        refine ⟨v1, v2, v3, rfl, fun a => ⟨lo a, hi a, axes3_some.mp hlo a, axes3_some.mp hhi a, ?_⟩⟩
        fin_cases a
        · exact b0
        · exact b1
        · exact b2
  · simp only [FlMeshRuns, hinit] at h
    exact absurd (congrFun h.2 j) hj

/-- The result depends neither on the order of the triangles nor on the number of threads, the split of the work or the
interleaving; if one call throws, so does the other. -/
theorem C69_order_and_schedule_independent {enforce : Bool} {vertices : List (Fin 3 → F)}
    {triangles triangles' : List (ℤ × ℤ × ℤ)} (hp : triangles.Perm triangles') {occ occ1 occ2 : Idx → Fl}
    {threw1 threw2 : Bool} (h1 : FlMeshRuns A m enforce vertices triangles occ threw1 occ1)
    (h2 : FlMeshRuns A m enforce vertices triangles' occ threw2 occ2) :
    threw1 = threw2 ∧ (threw1 = false → occ1 = occ2) := by
  by_cases hi : m.initialized = true
  · obtain ⟨a1, b1, c1⟩ := flMeshRuns_spec hi h1
    obtain ⟨a2, b2, c2⟩ := flMeshRuns_spec hi h2
    have hperm : ∀ x, FlMeshActs A m enforce vertices triangles x ↔ FlMeshActs A m enforce vertices triangles' x := by
      intro x
      unfold FlMeshActs
      simp only [hp.mem_iff]
    have hthrew : threw1 = threw2 := by
      rw [Bool.eq_iff_iff, a1, a2, hperm]
    refine ⟨hthrew, fun hf => funext fun j => ?_⟩
    rcases c1 j with e1 | ⟨e1, f1⟩
    · rcases c2 j with e2 | ⟨e2, f2⟩
      · rw [e1, e2]
      · rw [b1 hf j ((hperm _).mpr f2), e2]
    · rw [e1, b2 (hthrew ▸ hf) j ((hperm _).mp f1)]
  · simp only [FlMeshRuns, hi] at h1 h2
    refine ⟨h1.1.trans h2.1.symm, fun hf => ?_⟩
    have := h1.1
    rw [hf] at this
    exact absurd this (by simp)

/-- There is an outcome whenever no triangle needs an index that does not fit. -/
theorem C69_has_outcome {enforce : Bool} {vertices : List (Fin 3 → F)} {triangles : List (ℤ × ℤ × ℤ)}
    (hdef : ∀ t ∈ triangles, (flTriangleActs A m enforce vertices t).isSome) (occ : Idx → Fl) :
    ∃ threw occ', FlMeshRuns A m enforce vertices triangles occ threw occ' := by
  have hacts : ∃ acts, flMeshActs A m enforce vertices triangles = some acts := by
    induction triangles with
    | nil => exact ⟨[], rfl⟩
    | cons t ts ih =>
      obtain ⟨a, ha⟩ := Option.isSome_iff_exists.mp (hdef t (by simp))
      obtain ⟨as, has⟩ := ih fun t' ht' => hdef t' (List.mem_cons_of_mem _ ht')
      exact ⟨a :: as, by simp [flMeshActs, ha, has]⟩
  obtain ⟨acts, hacts⟩ := hacts
  unfold FlMeshRuns
  by_cases hi : m.initialized = true
  · simp only [hi, Bool.not_true, Bool.false_eq_true, if_false]
    obtain ⟨n, hn⟩ := rast_single_thread
      ((List.range triangles.length).flatMap fun k => (acts[k]?).getD [.throw]) occ
    refine ⟨_, _, acts, hacts, [List.range triangles.length], by simp [IsSplit], List.replicate n 0, ?_, rfl, rfl⟩
    simp only [List.map_cons, List.map_nil, hn]
    simp
  · exact ⟨true, occ, by simp [hi]⟩

/-- Without enforcement nothing is thrown, wherever the mesh lies and whatever its coordinates. -/
theorem C69_no_enforcement_no_throw {vertices : List (Fin 3 → F)} {triangles : List (ℤ × ℤ × ℤ)}
    {occ occ' : Idx → Fl} {threw : Bool} (hinit : m.initialized = true)
    (hidx : ∀ t ∈ triangles, ∀ k, k = t.1 ∨ k = t.2.1 ∨ k = t.2.2 → 0 ≤ k ∧ k < vertices.length)
    (h : FlMeshRuns A m false vertices triangles occ threw occ') : threw = false := by
  rw [Bool.eq_false_iff, Ne, (flMeshRuns_spec hinit h).1]
  rintro ⟨t, ht, acts, ha, hthrow⟩
  obtain ⟨v1, v2, v3, e, -⟩ := corners_valid (hidx t ht)
  obtain ⟨lo, hi, -, -, rfl⟩ := (flTriangleActs_some e).mp ha
  obtain ⟨i, -, hf⟩ := List.mem_flatMap.mp hthrow
  exact absurd (actOn_throw.mp hf).1 (by simp)

/-- A second call with the same mesh changes nothing. -/
theorem C69_idempotent {enforce : Bool} {vertices : List (Fin 3 → F)} {triangles : List (ℤ × ℤ × ℤ)}
    {occ occ1 occ2 : Idx → Fl} {threw : Bool} (h1 : FlMeshRuns A m enforce vertices triangles occ false occ1)
    (h2 : FlMeshRuns A m enforce vertices triangles occ1 threw occ2) : threw = false ∧ occ2 = occ1 := by
  by_cases hi : m.initialized = true
  · obtain ⟨a1, b1, c1⟩ := flMeshRuns_spec hi h1
    obtain ⟨a2, b2, c2⟩ := flMeshRuns_spec hi h2
    refine ⟨?_, funext fun j => ?_⟩
    · rw [Bool.eq_false_iff, Ne, a2, ← a1]
      simp
    · rcases c2 j with e | ⟨e, f⟩
      · exact e
      · rw [e, b1 rfl j f]
  · simp only [FlMeshRuns, hi] at h1
    exact absurd h1.1 (by simp)

/-- `RasterizeTriangle` does what `RasterizeMesh` does for a mesh of that triangle; it throws for a map that is not initialized
and for a triangle that does not exist, and then leaves the map alone. -/
theorem C69_single_triangle {enforce : Bool} {vertices : List (Fin 3 → F)} {triangles : List (ℤ × ℤ × ℤ)} {index : ℕ}
    {occ occ' : Idx → Fl} {threw : Bool}
    (h : flRasterizeTriangle A m enforce vertices triangles index occ = some (threw, occ')) :
    (∀ t, triangles[index]? = some t → FlMeshRuns A m enforce vertices [t] occ threw occ') ∧
    (m.initialized = false ∨ triangles.length ≤ index → threw = true ∧ occ' = occ) := by
  unfold flRasterizeTriangle at h
  unfold FlMeshRuns
  by_cases hi : m.initialized = true
  · simp only [hi, Bool.not_true, Bool.false_eq_true, if_false] at h ⊢
    rcases ht : triangles[index]? with _ | t
    · rw [ht] at h
      cases h
      exact ⟨fun t h => absurd h (by simp), fun _ => ⟨rfl, rfl⟩⟩
    · rw [ht] at h
      obtain ⟨acts, ha, he⟩ := Option.map_eq_some_iff.mp h
      refine ⟨?_, ?_⟩
      · intro t' e
        cases e
        obtain ⟨n, hn⟩ := rast_single_thread acts occ
        refine ⟨[acts], by simp [flMeshActs, ha], [[0]], by simp [IsSplit], List.replicate n 0, ?_⟩
        have e : ([[0]] : List (List ℕ)).map (fun is => is.flatMap fun k => (([acts] : List (List RAct))[k]?).getD [.throw])
            = [acts] := by simp
        rw [e, hn, he]
        exact ⟨by simp, rfl, rfl⟩
      · rintro (h' | h')
        · exact absurd h' (by simp)
        · rw [List.getElem?_eq_none h'] at ht
          exact absurd ht (by simp)
  · simp only [hi, Bool.not_false, if_true, Bool.not_eq_true] at h ⊢
    cases h
    simp

end

/-! ### C69: exact arithmetic is the other model -/

section
variable {K : Type} [Field K] [LinearOrder K] [IsStrictOrderedRing K] [FloorRing K]

theorem flMin3_exact (a b c : K) : flMin3 exactRast a b c = min (min a b) c := by
  have e : (if b < a then b else a) = min a b := by
    rcases lt_or_ge b a with h | h
    · rw [if_pos h, min_eq_right h.le]
    · rw [if_neg (not_lt.mpr h), min_eq_left h]
  simp only [flMin3, exactRast, decide_eq_true_eq, e]
  rcases lt_or_ge c (min a b) with h | h
  · rw [if_pos h, min_eq_right h.le]
  · rw [if_neg (not_lt.mpr h), min_eq_left h]

theorem flMax3_exact (a b c : K) : flMax3 exactRast a b c = max (max a b) c := by
  have e : (if a < b then b else a) = max a b := by
    rcases lt_or_ge a b with h | h
    · rw [if_pos h, max_eq_right h.le]
    · rw [if_neg (not_lt.mpr h), max_eq_left h]
  simp only [flMax3, exactRast, decide_eq_true_eq, e]
  rcases lt_or_ge (max a b) c with h | h
  · rw [if_pos h, max_eq_right h.le]
  · rw [if_neg (not_lt.mpr h), max_eq_left h]

theorem flRastIndex_exact (m : RastMap K) (p : Vec K) : flRastIndex exactRast m.open p = some (m.indexOf p) := by
  apply axes3_some.mpr
  intro a
  simp only [exactRast, RastMap.open, RastMap.indexOf, cellOf]
  congr 2
  rw [mul_one_div]

theorem flRastCentre_exact (m : RastMap K) (i : ZIdx) : flRastCentre exactRast m.open i = m.centreOf i := rfl

theorem flHit_exact (m : RastMap K) (v1 v2 v3 : Vec K) (i : ZIdx) :
    flHit exactRast m.open v1 v2 v3 i = m.hitBy codeKey v1 v2 v3 i := by
  have hpick : ∀ c12 c23 c31 : Vec K,
      flPickCandidate exactRast c12 c23 c31 = pickCandidate sqNorm c12 c23 c31 := by
    intro c12 c23 c31
    simp only [flPickCandidate, pickCandidate, exactRast, Bool.and_eq_true, decide_eq_true_eq]
  have htri : ∀ n q : Vec K, flClosestOnTriangle exactRast v1 v2 v3 n q = closestOnTriangleBy sqNorm v1 v2 v3 n q := by
    intro n q
    unfold flClosestOnTriangle closestOnTriangleBy
    rw [hpick]
    rfl
  unfold flHit RastMap.hitBy
  dsimp only
  rw [htri]
  rfl

/-- In exact arithmetic the actions are those of the exact model. -/
theorem C69_exact_triangle (m : RastMap K) (enforce : Bool) (vertices : List (Vec K)) (t : ℤ × ℤ × ℤ) :
    flTriangleActs exactRast m.open enforce vertices t = some (m.triangleActs codeKey enforce vertices t) := by
  rcases hc : corners vertices t with _ | ⟨v1, v2, v3⟩
  · rw [flTriangleActs_bad hc]
    unfold RastMap.triangleActs
    rw [hc]
  · refine (flTriangleActs_some hc).mpr ⟨_, _, flRastIndex_exact _ _, flRastIndex_exact _ _, ?_⟩
    unfold RastMap.triangleActs
    rw [hc]
    simp only [flHit_exact, flMin3_exact, flMax3_exact]
    rfl

/-- In exact arithmetic the outcomes are those of the exact model. -/
theorem C69_exact {m : RastMap K} {enforce : Bool} {vertices : List (Vec K)} {triangles : List (ℤ × ℤ × ℤ)}
    {occ occ' : Idx → Fl} {threw : Bool} :
    FlMeshRuns exactRast m.open enforce vertices triangles occ threw occ' ↔
      m.MeshRuns codeKey enforce vertices triangles occ threw occ' := by
  have hacts : ∀ ts : List (ℤ × ℤ × ℤ), flMeshActs exactRast m.open enforce vertices ts
      = some (ts.map (m.triangleActs codeKey enforce vertices)) := by
    intro ts
    induction ts with
    | nil => rfl
    | cons t ts ih => simp [flMeshActs, C69_exact_triangle, ih]
  have hthread : ∀ is : List ℕ,
      (is.flatMap fun k => ((triangles.map (m.triangleActs codeKey enforce vertices))[k]?).getD [.throw])
        = m.threadActs codeKey enforce vertices triangles is := by
    intro is
    unfold RastMap.threadActs
    congr 1
    funext k
    rw [List.getElem?_map]
    cases triangles[k]? <;> rfl
  unfold FlMeshRuns RastMap.MeshRuns
  have hopen : m.open.initialized = m.initialized := rfl
  rw [hopen]
  split_ifs
  · exact Iff.rfl
  · rw [hacts]
    constructor
    · rintro ⟨acts, hacts, split, hs, sched, hrun⟩
      cases hacts
      refine ⟨split, hs, sched, ?_⟩
      simpa only [hthread] using hrun
    · rintro ⟨split, hs, sched, hrun⟩
      refine ⟨_, rfl, split, hs, sched, ?_⟩
      simpa only [hthread] using hrun

/-! ### C71: degenerate triangles -/

/-- If the corners of a triangle lie on a line (or coincide), the normal is zero, every side test passes and the centre of the
cell itself is taken for its projection: every cell of the map in the triangle's box is filled, however far from the line. -/
theorem C71_degenerate_fills_its_box {m : RastMap K} (hinit : m.initialized = true) {enforce : Bool}
    {vertices : List (Vec K)} {triangles : List (ℤ × ℤ × ℤ)} {t : ℤ × ℤ × ℤ} (ht : t ∈ triangles) {v1 v2 v3 : Vec K}
    (hc : corners vertices t = some (v1, v2, v3))
    (hline : ∃ (p d : Vec K) (x y z : K), (∀ a, v1 a = p a + x * d a) ∧ (∀ a, v2 a = p a + y * d a) ∧ ∀ a, v3 a = p a + z * d a)
    {occ occ' : Idx → Fl} (h : m.MeshRuns codeKey enforce vertices triangles occ false occ') {j : Idx} (hj : m.dims.In j)
    (hbox : toZ j ∈ m.boxOf v1 v2 v3) : occ' j = .fin 1 := by
  refine (meshRuns_spec hinit h).2.1 rfl j ⟨t, ht, fill_mem.mpr ⟨v1, v2, v3, hc, hj, hbox, ?_⟩⟩
  obtain ⟨p, d, x, y, z, e1, e2, e3⟩ := hline
  have zero : ∀ (a b c : Vec K) (x y z : K), (∀ i, a i = p i + x * d i) → (∀ i, b i = p i + y * d i) →
      (∀ i, c i = p i + z * d i) → cross3 (vsub b a) (vsub c a) = fun _ => 0 := by
    intro a b c x y z ha hb hc
    funext i
    fin_cases i <;> simp [cross3, vsub, ha, hb, hc] <;> ring
  have side : ∀ (a b c q : Vec K) (x y z : K), (∀ i, a i = p i + x * d i) → (∀ i, b i = p i + y * d i) →
      (∀ i, c i = p i + z * d i) → sameSide a b c q = true := by
    intro a b c q x y z ha hb hc
    unfold sameSide
    dsimp only
    rw [zero a b c x y z ha hb hc]
    simp [dot3]
  unfold RastMap.hitBy closestOnTriangleBy projectsInside
  dsimp only
  rw [side v1 v2 v3 _ x y z e1 e2 e3, side v2 v3 v1 _ y z x e2 e3 e1, side v3 v1 v2 _ z x y e3 e1 e2,
    zero v1 v2 v3 x y z e1 e2 e3]
  simp only [Bool.and_self, if_true, decide_eq_true_eq]
  have hq : ∀ q : Vec K, sqNorm (vsub (vadd v1 (vectorRejection (fun _ => 0) (vsub q v1))) q) = 0 := by
    intro q
    simp [sqNorm, dot3, vsub, vadd, vectorRejection, vscale]
  rw [hq]
  nlinarith [mul_self_nonneg (m.s * (1 / 2))]

/-- Full statement: a triangle with corners on a line fills the cells it passes through and no cell far from it.  Proved: it
fills all cells it passes through, in maps without rotation.  Missing: it fills cells far from it as well
(`C71_diagonal_fills_plate`). -/
theorem C71_degenerate_partial {m : RastMap K} {o : Vec K} (hm : m.Unrotated o) (hs : 0 < m.s) (hinit : m.initialized = true)
    {enforce : Bool} {vertices : List (Vec K)} {triangles : List (ℤ × ℤ × ℤ)} {t : ℤ × ℤ × ℤ} (ht : t ∈ triangles)
    {v1 v2 v3 : Vec K} (hc : corners vertices t = some (v1, v2, v3))
    (hline : ∃ (p d : Vec K) (x y z : K), (∀ a, v1 a = p a + x * d a) ∧ (∀ a, v2 a = p a + y * d a) ∧ ∀ a, v3 a = p a + z * d a)
    {occ occ' : Idx → Fl} (h : m.MeshRuns codeKey enforce vertices triangles occ false occ') {j : Idx} (hj : m.dims.In j)
    (hpass : PassesThrough m.s o v1 v2 v3 ![(j.1 : ℤ), (j.2.1 : ℤ), (j.2.2 : ℤ)]) : occ' j = .fin 1 :=
  C71_degenerate_fills_its_box hinit ht hc hline h hj (box_covers hm hs hpass)

end

/-- A map of 6 by 6 by 1 unit cells at the origin. -/
def plate : RastMap ℚ :=
  { initialized := true, dims := ⟨6, 6, 1⟩, s := 1, pose := ⟨fun i j => if i = j then 1 else 0, fun _ => 0⟩ }

/-- A triangle that is only the diagonal of the plate. -/
def flatTriangle : List (Vec ℚ) := [![1/2, 1/2, 1/2], ![5/2, 5/2, 1/2], ![11/2, 11/2, 1/2]]

/-- The diagonal of the plate, as a triangle, fills the whole plate, also the corner cell whose centre is over three cells
from every point of the triangle. -/
theorem C71_diagonal_fills_plate :
    (∀ occ', plate.MeshRuns codeKey true flatTriangle [(0, 1, 2)] (fun _ => .fin 0) false occ' →
      ∀ x < 6, ∀ y < 6, occ' (x, y, 0) = .fin 1) ∧
    ∀ p, OnTriangle (![1/2, 1/2, 1/2] : Vec ℚ) ![5/2, 5/2, 1/2] ![11/2, 11/2, 1/2] p →
      9 < sqDistance p (plate.centreOf (0, 5, 0)) := by
  refine ⟨fun occ' h x hx y hy => ?_, ?_⟩
  · refine C71_degenerate_fills_its_box (K := ℚ) (t := (0, 1, 2)) rfl (by simp) rfl
      ⟨![1/2, 1/2, 1/2], ![1, 1, 0], 0, 2, 5, ?_, ?_, ?_⟩ h ⟨hx, hy, by simp [plate]⟩ ?_
    · intro a; fin_cases a <;> norm_num
    · intro a; fin_cases a <;> norm_num
    · intro a; fin_cases a <;> norm_num
    · have hu : plate.Unrotated (fun _ => 0) := ⟨fun _ _ => rfl, fun _ => rfl⟩
      refine (mem_boxOf _ _ _ _ _).mpr ?_
      simp only [indexOf_unrotated hu]
      have z1 : (![1/2, 1/2, 1/2] : Vec ℚ) 2 = 1/2 := rfl
      have z2 : (![5/2, 5/2, 1/2] : Vec ℚ) 2 = 1/2 := rfl
      have z3 : (![11/2, 11/2, 1/2] : Vec ℚ) 2 = 1/2 := rfl
      simp only [lowCorner, highCorner, plate, VGT.toZ, z1, z2, z3]
      norm_num
      omega
  · rintro p ⟨x, y, z, hx, hy, hz, hs, hp⟩
    have h0 := hp 0
    have h1 := hp 1
    have hu : plate.Unrotated (fun _ => 0) := ⟨fun _ _ => rfl, fun _ => rfl⟩
    unfold sqDistance
    simp only [centreOf_unrotated hu]
    simp only [plate, Matrix.cons_val_zero, Matrix.cons_val_one] at *
    have e : p 0 = p 1 := by rw [h0, h1]
    norm_num
    nlinarith [sq_nonneg (p 2 - 1 / 2), sq_nonneg (2 * p 0 - 6)]

/-! ### C71: NaN -/

/-- A NaN in the first vertex, in IEEE arithmetic: the index of the box's corner is computed from NaN, which is undefined. -/
theorem C71_nan_first_vertex {r : ℚ → Fl} {bits : ℕ} {A : RastArith Fl} (hA : A.toArith = ieee r bits) {m : FlRastMap Fl}
    {t : Fin 3 → Fl} (hm : m.toGrid = fun p a => A.sub (p a) (t a)) {enforce : Bool} {vertices : List (Fin 3 → Fl)}
    {k : ℤ × ℤ × ℤ} {v1 v2 v3 : Fin 3 → Fl} (hc : corners vertices k = some (v1, v2, v3)) {a : Fin 3} (hn : v1 a = .nan) :
    flTriangleActs A m enforce vertices k = none := by
  rw [Option.eq_none_iff_forall_ne_some]
  intro acts h
  obtain ⟨lo, hi, hlo, -⟩ := (flTriangleActs_some hc).mp h
  have ha := axes3_some.mp hlo a
  have hmin : flMin3 A (v1 a) (v2 a) (v3 a) = .nan := by
    have hlt : ∀ x, A.lt x Fl.nan = false := by
      intro x
      rw [hA]
      cases x <;> rfl
    unfold flMin3
    simp [hn, hlt]
  rw [hm] at ha
  simp only [hmin] at ha
  have hsub : ∀ x, A.sub Fl.nan x = .nan := by
    intro x
    rw [hA]
    cases x <;> rfl
  have hmul : ∀ x, A.mul Fl.nan x = .nan := by
    intro x
    rw [hA]
    cases x <;> rfl
  have hto : A.toInt Fl.nan = none := by
    rw [hA]
    rfl
  rw [hsub, hmul, hto] at ha
  exact absurd ha (by simp)

/-- A row of three unit cells, in `double`. -/
def flRow : FlRastMap Fl :=
  { initialized := true, dims := ⟨3, 1, 1⟩, s := .fin 1, inv := .fin 1,
    toGrid := fun p a => doubleRast.sub (p a) (.fin 0), toWorld := fun p a => doubleRast.add (p a) (.fin 0) }

/-- A point in the middle of the row. -/
def onRow (x : Fl) : Fin 3 → Fl := ![x, .fin (1 / 2), .fin (1 / 2)]

/-- A NaN in the second vertex: no error, and the edge between the other two is filled. -/
theorem C71_nan_second_vertex :
    flTriangleActs doubleRast flRow true [onRow (.fin (1 / 2)), onRow .nan, onRow (.fin (5 / 2))] (0, 1, 2)
      = some [.fill (0, 0, 0), .fill (1, 0, 0), .fill (2, 0, 0)] := by decide +kernel

/-- A NaN in the third vertex: no error, and nothing is filled. -/
theorem C71_nan_third_vertex :
    flTriangleActs doubleRast flRow true [onRow (.fin (1 / 2)), onRow (.fin (5 / 2)), onRow .nan] (0, 1, 2)
      = some [] := by decide +kernel

/-- The same triangle without NaN fills all three cells. -/
example : flTriangleActs doubleRast flRow true [onRow (.fin (1 / 2)), onRow (.fin (5 / 2)), onRow (.fin (3 / 2))] (0, 1, 2)
      = some [.fill (0, 0, 0), .fill (1, 0, 0), .fill (2, 0, 0)] := by decide +kernel

/-- The IEEE operations are those of exact arithmetic with each result passed through the rounding: without rounding they
agree on finite numbers. -/
theorem C69_ieee_operations (c : ℚ) (bits : ℕ) (a b : Vec ℚ) (x : ℚ) :
    (ieeeRast (ieee Fl.fin bits) (.fin c)).dot (fun i => .fin (a i)) (fun i => .fin (b i)) = .fin (exactRast.dot a b) ∧
    (∀ i, (ieeeRast (ieee Fl.fin bits) (.fin c)).cross (fun i => .fin (a i)) (fun i => .fin (b i)) i
      = .fin (exactRast.cross a b i)) ∧
    (ieeeRast (ieee Fl.fin bits) (.fin c)).sqNorm (fun i => .fin (a i)) = .fin (exactRast.sqNorm a) ∧
    (∀ i, (ieeeRast (ieee Fl.fin bits) (.fin c)).rejection (fun i => .fin (a i)) (fun i => .fin (b i)) i
      = .fin (exactRast.rejection a b i)) ∧
    (ieeeRast (ieee Fl.fin bits) (.fin c)).clamp01 (.fin x) = .fin (exactRast.clamp01 x) ∧
    (ieeeRast (ieee Fl.fin bits) (.fin c)).clamp01 .nan = .nan ∧
    (ieeeRast (ieee Fl.fin bits) (.fin c)).radiusSq (.fin x) = .fin (c ^ 2 * x ^ 2) := by
  refine ⟨rfl, ?_, rfl, ?_, ?_, rfl, ?_⟩
  · intro i
    fin_cases i <;> rfl
  · intro i
    show (if decide ((0 : ℚ) < dot3 a a) = true then fun i => Fl.subR Fl.fin (.fin (b i))
      (Fl.mulR Fl.fin (.fin (a i)) (Fl.divR Fl.fin (.fin (dot3 a b)) (.fin (dot3 a a)))) else fun i => Fl.fin (b i)) i
      = .fin (b i - a i * (dot3 a b / dot3 a a))
    have h0 : 0 ≤ dot3 a a := by
      unfold dot3
      nlinarith [mul_self_nonneg (a 0), mul_self_nonneg (a 1), mul_self_nonneg (a 2)]
    by_cases h : (0 : ℚ) < dot3 a a
    · rw [decide_eq_true h, if_pos rfl]
      simp only [Fl.divR, h.ne', if_false]
      rfl
    · have hz : dot3 a a = 0 := le_antisymm (not_lt.mp h) h0
      rw [hz, div_zero, mul_zero, sub_zero]
      simp
  · show (if decide ((1 : ℚ) < x) = true then Fl.fin 1 else if decide (x < (0 : ℚ)) = true then Fl.fin 0 else Fl.fin x)
      = .fin (clampTo x 0 1)
    unfold clampTo
    simp only [decide_eq_true_eq]
    split_ifs <;> rfl
  · show Fl.fin (x * c * (x * c)) = _
    congr 1
    ring

/-- The constant of the radius is the root of three to the last place of a `double`. -/
example : |(roundDouble (17320508075688772935 / 10 ^ 19) : ℚ) ^ 2 - 3| ≤ 1 / 2 ^ 51 := by decide +kernel

/-- `Fl.ceilInt` is the least integer that is not smaller, if the index type has it. -/
theorem ceilInt_some {bits : ℕ} {x : Fl} {k : ℤ} : Fl.ceilInt bits x = some k ↔
    ∃ q, x = .fin q ∧ (k : ℚ) - 1 < q ∧ q ≤ k ∧ -2 ^ (bits - 1) ≤ k ∧ k < 2 ^ (bits - 1) := by
  cases x with
  | fin q =>
    have hk : ⌈q⌉ = k ↔ (k : ℚ) - 1 < q ∧ q ≤ k := Int.ceil_eq_iff
    simp only [Fl.ceilInt, Fl.fin.injEq, exists_eq_left']
    constructor
    · intro h
      split_ifs at h with hb
      have e := Option.some.inj h
      exact ⟨(hk.mp e).1, (hk.mp e).2, e ▸ hb.1, e ▸ hb.2⟩
    · rintro ⟨h1, h2, h3, h4⟩
      have e := hk.mpr ⟨h1, h2⟩
      rw [e, if_pos ⟨h3, h4⟩]
  | nan => simp [Fl.ceilInt]
  | pinf => simp [Fl.ceilInt]
  | ninf => simp [Fl.ceilInt]

/-! ### C69: a new map holds its mesh -/

section
variable {K : Type} [Field K] [LinearOrder K] [IsStrictOrderedRing K] [FloorRing K]

/-- Rounding with relative error `u` and absolute error `η` (from underflow), both small against the resolution, and the
coordinates not too large against it. -/
structure FineFor (r : K → K) (u η res : K) : Prop where
  mono : ∀ x y, x ≤ y → r x ≤ r y
  zero : r 0 = 0
  err : ∀ x, |r x - x| ≤ u * |x| + η
  u0 : 0 ≤ u
  eta0 : 0 ≤ η
  res0 : 0 < res
  eta_one : η ≤ u
  eta_res : η ≤ u * res
  eta_inv : η * res ≤ u

/-- The number of cells is above the index of every coordinate. -/
theorem FineFor.index_lt {r : K → K} {u η res : K} (h : FineFor r u η res) {lo hi w : K} (hlo : r lo = lo) (hlw : lo ≤ w)
    (hwh : w ≤ hi) (hfine : u * (8 * ((hi - lo) / res) + 2 * (|lo - res| / res) + 30) ≤ 1) :
    0 ≤ ⌊r (r (w - r (lo - res)) * r (1 / res))⌋ ∧
      ⌊r (r (w - r (lo - res)) * r (1 / res))⌋ < ⌈r (r (r (hi - lo) + r (res * 2)) / res)⌉ := by
  obtain ⟨mono, zero, err, u0, eta0, res0, eta1, etas, etai⟩ := h
  have up : ∀ x, 0 ≤ x → r x ≤ x + u * x + η := by
    intro x hx
    have := (abs_le.mp (err x)).2
    rw [abs_of_nonneg hx] at this
    linarith
  have down : ∀ x, 0 ≤ x → x - u * x - η ≤ r x := by
    intro x hx
    have := (abs_le.mp (err x)).1
    rw [abs_of_nonneg hx] at this
    linarith
  have nonneg : ∀ x, 0 ≤ x → 0 ≤ r x := fun x hx => by
    have := mono 0 x hx
    rwa [zero] at this
  set t := r (lo - res) with ht
  have htlo : t ≤ lo := by
    have := mono (lo - res) lo (by linarith)
    rw [hlo] at this
    exact this
  have hterr : lo - res - (u * |lo - res| + η) ≤ t := by
    have := (abs_le.mp (err (lo - res))).1
    linarith
  set e := (hi - lo) / res with he
  set L := |lo - res| / res with hL
  have e0 : 0 ≤ e := div_nonneg (by linarith) res0.le
  have L0 : 0 ≤ L := div_nonneg (abs_nonneg _) res0.le
  have hE : hi - lo = e * res := by rw [he]; field_simp
  have hLL : |lo - res| = L * res := by rw [hL]; field_simp
  have ue0 : 0 ≤ u * e := mul_nonneg u0 e0
  have uL0 : 0 ≤ u * L := mul_nonneg u0 L0
  have hfine' : 8 * (u * e) + 2 * (u * L) + 30 * u ≤ 1 := by linarith [hfine]
  have hu : u ≤ 1 / 30 := by linarith
  refine ⟨Int.floor_nonneg.mpr (nonneg _ (mul_nonneg (nonneg _ (by linarith)) (nonneg _ (by positivity)))), ?_⟩
  rw [Int.floor_lt]
  refine lt_of_lt_of_le ?_ (Int.le_ceil _)
  -- the computed index, in cells
  have hinv0 : 0 ≤ r (1 / res) := nonneg _ (by positivity)
  have hinv : r (1 / res) * res ≤ 1 + 2 * u := by
    have h1 := up (1 / res) (by positivity)
    have h2 := mul_le_mul_of_nonneg_right h1 res0.le
    have h3 : (1 / res + u * (1 / res) + η) * res = 1 + u + η * res := by field_simp
    linarith
  set A := e + 1 + u * L + u with hA
  have A0 : 0 ≤ A := by linarith
  have hg0 : 0 ≤ w - t := by linarith
  have hg : w - t ≤ A * res := by
    have : w - t ≤ (hi - lo) + res + (u * |lo - res| + η) := by linarith
    rw [hE, hLL] at this
    have e2 : A * res = e * res + res + u * (L * res) + u * res := by rw [hA]; ring
    linarith
  set g := r (w - t) with hgdef
  have hgr0 : 0 ≤ g := nonneg _ hg0
  set z := u * A with hz
  have z0 : 0 ≤ z := mul_nonneg u0 A0
  have hg2 : g ≤ (A + z + u) * res := by
    have h1 := up (w - t) hg0
    have h2 := mul_le_mul_of_nonneg_left hg u0
    have h3 : (A + z + u) * res = A * res + u * (A * res) + u * res := by rw [hz]; ring
    linarith
  have uL1 : u * L ≤ 1 / 2 := by linarith
  have hzb : z ≤ u * e + 2 * u := by
    have h1 : z = u * e + u + u * (u * L) + u * u := by rw [hz, hA]; ring
    have h2 := mul_le_mul_of_nonneg_left uL1 u0
    have h3 := mul_le_mul_of_nonneg_left hu u0
    linarith
  have z1 : z + u ≤ 1 / 5 := by linarith
  set p := g * r (1 / res) with hp
  have hp0 : 0 ≤ p := mul_nonneg hgr0 hinv0
  have hp1 : p ≤ A + 3 * z + 3 * u := by
    have h1 := mul_le_mul_of_nonneg_right hg2 hinv0
    have h2 : (A + z + u) * res * r (1 / res) = (A + z + u) * (r (1 / res) * res) := by ring
    have h3 := mul_le_mul_of_nonneg_left hinv (by linarith : 0 ≤ A + z + u)
    have h4 : (A + z + u) * (1 + 2 * u) = A + z + u + 2 * z + 2 * (u * (z + u)) := by rw [hz]; ring
    have h5 := mul_le_mul_of_nonneg_left z1 u0
    linarith
  have hrp : r p ≤ A + 4 * z + 5 * u := by
    have h1 := up p hp0
    have h2 := mul_le_mul_of_nonneg_left hp1 u0
    have h3 : u * (A + 3 * z + 3 * u) = z + 3 * (u * (z + u)) := by rw [hz]; ring
    have h4 := mul_le_mul_of_nonneg_left z1 u0
    linarith
  -- the number of cells
  have hd : e * res - u * (e * res) - u * res ≤ r (hi - lo) := by
    have := down (hi - lo) (by linarith)
    rw [hE] at this ⊢
    linarith
  have hb : res * 2 - u * (res * 2) - u * res ≤ r (res * 2) := by
    have := down (res * 2) (by linarith)
    linarith
  have hd0 : 0 ≤ r (hi - lo) := nonneg _ (by linarith)
  have hb0 : 0 ≤ r (res * 2) := nonneg _ (by linarith)
  set x1 := e + 2 - u * e - 4 * u with hx1
  have hx1' : x1 * res ≤ r (hi - lo) + r (res * 2) := by
    have : x1 * res = (e * res - u * (e * res) - u * res) + (res * 2 - u * (res * 2) - u * res) := by rw [hx1]; ring
    linarith
  have x10 : 0 ≤ x1 := by linarith
  have hsum := mono _ _ hx1'
  have hs1 := down (x1 * res) (by positivity)
  set size := r (r (hi - lo) + r (res * 2)) with hsize
  set x2 := e + 2 - 2 * (u * e) - 7 * u with hx2
  have hx2' : x2 * res ≤ size := by
    have h1 : x2 ≤ x1 - u * x1 - u := by
      have : u * x1 = u * e + 2 * u - u * (u * e) - 4 * (u * u) := by rw [hx1]; ring
      have := mul_nonneg u0 ue0
      have := mul_nonneg u0 u0
      linarith
    have h2 := mul_le_mul_of_nonneg_right h1 res0.le
    have h3 : (x1 - u * x1 - u) * res = x1 * res - u * (x1 * res) - u * res := by ring
    linarith
  have x20 : 0 ≤ x2 := by linarith
  have hdiv : x2 ≤ size / res := (le_div_iff₀ res0).mpr hx2'
  have hr := mono _ _ hdiv
  have hs2 := down x2 x20
  have h3 : e + 2 - 3 * (u * e) - 10 * u ≤ r (size / res) := by
    have : u * x2 = u * e + 2 * u - 2 * (u * (u * e)) - 7 * (u * u) := by rw [hx2]; ring
    have := mul_nonneg u0 ue0
    have := mul_nonneg u0 u0
    linarith
  linarith

theorem flMeshLow_rounded {A : RastArith K} {r : K → K} (hA : A.toArith = roundedArith r) :
    ∀ (vs : List (Vec K)) (v : Vec K), flMeshLow A v vs = meshLow v vs := by
  have e : (fun (l w : Fin 3 → K) a => if A.lt (w a) (l a) then w a else l a)
      = fun (l w : Fin 3 → K) a => min (l a) (w a) := by
    funext l w a
    have : A.lt (w a) (l a) = decide (w a < l a) := by rw [hA]; rfl
    rw [this]
    rcases lt_or_ge (w a) (l a) with h | h
    · rw [if_pos (by simpa using h), min_eq_right h.le]
    · rw [if_neg (by simpa using h), min_eq_left h]
  intro vs v
  unfold flMeshLow meshLow
  rw [e]

theorem flMeshHigh_rounded {A : RastArith K} {r : K → K} (hA : A.toArith = roundedArith r) :
    ∀ (vs : List (Vec K)) (v : Vec K), flMeshHigh A v vs = meshHigh v vs := by
  have e : (fun (l w : Fin 3 → K) a => if A.lt (l a) (w a) then w a else l a)
      = fun (l w : Fin 3 → K) a => max (l a) (w a) := by
    funext l w a
    have : A.lt (l a) (w a) = decide (l a < w a) := by rw [hA]; rfl
    rw [this]
    rcases lt_or_ge (l a) (w a) with h | h
    · rw [if_pos (by simpa using h), max_eq_right h.le]
    · rw [if_neg (by simpa using h), max_eq_left h]
  intro vs v
  unfold flMeshHigh meshHigh
  rw [e]

theorem meshLow_mem (a : Fin 3) : ∀ (vs : List (Vec K)) (v : Vec K), ∃ w ∈ v :: vs, meshLow v vs a = w a
  | [], v => ⟨v, by simp, rfl⟩
  | u :: us, v => by
    obtain ⟨w, hw, e⟩ := meshLow_mem a us (fun b => min (v b) (u b))
    have hstep : meshLow v (u :: us) = meshLow (fun b => min (v b) (u b)) us := rfl
    rw [hstep, e]
    rcases List.mem_cons.mp hw with rfl | hw
    · rcases min_choice (v a) (u a) with h | h
      · exact ⟨v, by simp, h⟩
      · exact ⟨u, by simp, h⟩
    · exact ⟨w, by simp [hw], rfl⟩

theorem meshHigh_mem (a : Fin 3) : ∀ (vs : List (Vec K)) (v : Vec K), ∃ w ∈ v :: vs, meshHigh v vs a = w a
  | [], v => ⟨v, by simp, rfl⟩
  | u :: us, v => by
    obtain ⟨w, hw, e⟩ := meshHigh_mem a us (fun b => max (v b) (u b))
    have hstep : meshHigh v (u :: us) = meshHigh (fun b => max (v b) (u b)) us := rfl
    rw [hstep, e]
    rcases List.mem_cons.mp hw with rfl | hw
    · rcases max_choice (v a) (u a) with h | h
      · exact ⟨v, by simp, h⟩
      · exact ⟨u, by simp, h⟩
    · exact ⟨w, by simp [hw], rfl⟩

/-- `RasterizeMeshIntoOccupancyMap` in rounded arithmetic: if rounding errors are small against the resolution (`hfine`), the
new map holds the whole mesh and the call never throws, on any number of threads. -/
theorem C69_into_new_map_rounded {A : RastArith K} {r : K → K} (hA : A.toArith = roundedArith r) {u η res : K}
    (h : FineFor r u η res) {v : Vec K} {vs : List (Vec K)} (hrep : ∀ w ∈ v :: vs, ∀ a, r (w a) = w a)
    (hfine : ∀ a, u * (8 * ((meshHigh v vs a - meshLow v vs a) / res) + 2 * (|meshLow v vs a - res| / res) + 30) ≤ 1)
    {triangles : List (ℤ × ℤ × ℤ)}
    (hidx : ∀ t ∈ triangles, ∀ k, k = t.1 ∨ k = t.2.1 ∨ k = t.2.2 → 0 ≤ k ∧ k < ((v :: vs).length : ℤ)) :
    ∃ m, flMeshMap A (fun x => some ⌈x⌉) 2 res v vs = some m ∧
      (∀ w ∈ v :: vs, ∃ i, flRastIndex A m w = some i ∧
        ∀ a, 0 ≤ i a ∧ i a < ((![m.dims.nx, m.dims.ny, m.dims.nz] : Fin 3 → ℕ) a : ℤ)) ∧
      ∀ threw occ', FlMeshRuns A m true (v :: vs) triangles (fun _ => .fin 0) threw occ' →
        threw = false ∧ ∀ j, occ' j = .fin 0 ∨ occ' j = .fin 1 := by
  have hle : A.le res A.zero = false := by
    rw [hA]
    exact decide_eq_false (not_le.mpr h.res0)
  have hlow := flMeshLow_rounded hA vs v
  have hhigh := flMeshHigh_rounded hA vs v
  set n : Fin 3 → ℤ := fun a => ⌈r (r (r (meshHigh v vs a - meshLow v vs a) + r (res * 2)) / res)⌉ with hn
  set t : Fin 3 → K := fun a => r (meshLow v vs a - res) with ht
  -- all coordinates between the corners of the mesh
  have hidx' : ∀ (w : Fin 3 → K), (∀ a, meshLow v vs a ≤ w a ∧ w a ≤ meshHigh v vs a) → ∀ a,
      0 ≤ ⌊r (r (w a - t a) * r (1 / res))⌋ ∧ ⌊r (r (w a - t a) * r (1 / res))⌋ < n a := by
    intro w hw a
    obtain ⟨w', hw', e⟩ := meshLow_mem a vs v
    exact h.index_lt (by rw [e]; exact hrep w' hw' a) (hw a).1 (hw a).2 (hfine a)
  have hnn : ∀ a, 0 ≤ n a := fun a => by
    have := hidx' (meshLow v vs) (fun a => ⟨le_rfl, (meshLow_le v vs a v (by simp)).trans (le_meshHigh v vs a v (by simp))⟩) a
    omega
  have haxes : (axes3 fun a => (fun x => some ⌈x⌉) (A.div (A.add (A.sub (flMeshHigh A v vs a) (flMeshLow A v vs a))
      (A.mul res 2)) res)) = some n := by
    apply axes3_some.mpr
    intro a
    rw [hlow, hhigh, hA]
    rfl
  refine ⟨{ initialized := true, dims := ⟨(n 0).toNat, (n 1).toNat, (n 2).toNat⟩, s := res, inv := A.div A.one res,
            toGrid := fun p a => A.sub (p a) (A.sub (flMeshLow A v vs a) res),
            toWorld := fun p a => A.add (p a) (A.sub (flMeshLow A v vs a) res) }, ?_, ?_, ?_⟩
  · unfold flMeshMap
    rw [hle]
    simp only [Bool.false_eq_true, if_false]
    rw [haxes]
    rfl
  all_goals
    set m : FlRastMap K :=
      { initialized := true, dims := ⟨(n 0).toNat, (n 1).toNat, (n 2).toNat⟩, s := res, inv := A.div A.one res,
        toGrid := fun p a => A.sub (p a) (A.sub (flMeshLow A v vs a) res),
        toWorld := fun p a => A.add (p a) (A.sub (flMeshLow A v vs a) res) } with hm
    have hind : ∀ w : Fin 3 → K, flRastIndex A m w = some fun a => ⌊r (r (w a - t a) * r (1 / res))⌋ := by
      intro w
      apply axes3_some.mpr
      intro a
      rw [hm]
      dsimp only
      rw [hlow, hA]
      rfl
    have hdim : ∀ a, ((![m.dims.nx, m.dims.ny, m.dims.nz] : Fin 3 → ℕ) a : ℤ) = n a := by
      intro a
      fin_cases a
      · exact Int.toNat_of_nonneg (hnn 0)
      · exact Int.toNat_of_nonneg (hnn 1)
      · exact Int.toNat_of_nonneg (hnn 2)
  · intro w hw
    refine ⟨_, hind w, fun a => ?_⟩
    rw [hdim]
    exact hidx' w (fun b => ⟨meshLow_le v vs b w hw, le_meshHigh v vs b w hw⟩) a
  · intro threw occ' hrun
    refine ⟨?_, fun j => (C69_only_fills hrun j).imp id And.left⟩
    rw [Bool.eq_false_iff, Ne, (flMeshRuns_spec rfl hrun).1]
    rintro ⟨k, hk, acts, ha, hthrow⟩
    obtain ⟨v1, v2, v3, e, m1, m2, m3⟩ := corners_valid (hidx k hk)
    obtain ⟨lo, hi, hlo, hhi, rfl⟩ := (flTriangleActs_some e).mp ha
    obtain ⟨i, hfi, hf⟩ := List.mem_flatMap.mp hthrow
    obtain ⟨b0, b1, b2⟩ := mem_indexBox.mp (List.mem_filter.mp hfi).1
    have hout := (actOn_throw.mp hf).2
    have hmin : ∀ (f : K → K → K → K), (∀ x y z, f x y z = x ∨ f x y z = y ∨ f x y z = z) → ∀ a,
        meshLow v vs a ≤ f (v1 a) (v2 a) (v3 a) ∧ f (v1 a) (v2 a) (v3 a) ≤ meshHigh v vs a := by
      intro f hf a
      rcases hf (v1 a) (v2 a) (v3 a) with h | h | h <;> rw [h]
      · exact ⟨meshLow_le v vs a v1 m1, le_meshHigh v vs a v1 m1⟩
      · exact ⟨meshLow_le v vs a v2 m2, le_meshHigh v vs a v2 m2⟩
      · exact ⟨meshLow_le v vs a v3 m3, le_meshHigh v vs a v3 m3⟩
    have c1 : ∀ x y z, flMin3 A x y z = x ∨ flMin3 A x y z = y ∨ flMin3 A x y z = z := by
      intro x y z
      unfold flMin3
      dsimp only
      split_ifs <;> simp
    have c2 : ∀ x y z, flMax3 A x y z = x ∨ flMax3 A x y z = y ∨ flMax3 A x y z = z := by
      intro x y z
      unfold flMax3
      dsimp only
      split_ifs <;> simp
    have l := hidx' _ (hmin _ c1)
    have u' := hidx' _ (hmin _ c2)
    rw [hind] at hlo hhi
    cases hlo
    cases hhi
    have d0 := hdim 0; have d1 := hdim 1; have d2 := hdim 2
    have l0 := (l 0).1; have l1 := (l 1).1; have l2 := (l 2).1
    have u0 := (u' 0).2; have u1 := (u' 1).2; have u2 := (u' 2).2
    have hin : checkInBounds m.dims i = true := by
      simp only [checkInBounds, Bool.and_eq_true, decide_eq_true_eq]
      have d0' : (m.dims.nx : ℤ) = n 0 := d0
      have d1' : (m.dims.ny : ℤ) = n 1 := d1
      have d2' : (m.dims.nz : ℤ) = n 2 := d2
      dsimp only at b0 b1 b2 l0 l1 l2 u0 u1 u2
      refine ⟨⟨⟨⟨⟨?_, ?_⟩, ?_⟩, ?_⟩, ?_⟩, ?_⟩ <;> omega
    rw [hin] at hout
    exact absurd hout (by simp)

end

section
variable {K : Type} [Field K] [LinearOrder K] [IsStrictOrderedRing K] [FloorRing K]

/-- `double`, for resolutions that are neither tiny nor huge: relative error 2^-53. -/
theorem roundDouble_fineFor {res : K} (h1 : (2 : K) ^ (-1022 : ℤ) ≤ res) (h2 : res ≤ 2 ^ (1022 : ℤ)) :
    FineFor (roundDouble : K → K) (2 ^ (-53 : ℤ)) (2 ^ (-1075 : ℤ)) res where
  mono := fun _ _ h => rne_mono (by norm_num) h
  zero := rne_zero 53 (-1074)
  err := fun x => rne_error_all (p := 53) (emin := -1074) x
  u0 := by positivity
  eta0 := by positivity
  res0 := lt_of_lt_of_le (by positivity) h1
  eta_one := zpow_le_zpow_right₀ (by norm_num) (by norm_num)
  eta_res := by
    rw [show (-1075 : ℤ) = -53 + -1022 by norm_num, zpow_add₀ (by norm_num)]
    gcongr
  eta_inv := by
    calc (2 : K) ^ (-1075 : ℤ) * res ≤ 2 ^ (-1075 : ℤ) * 2 ^ (1022 : ℤ) := by gcongr
      _ = 2 ^ (-53 : ℤ) := by rw [← zpow_add₀ (by norm_num)]; norm_num

/-- `RasterizeMeshIntoOccupancyMap` in `double`: a mesh whose coordinates are within 2^48 cells of the world's origin gets a
map that holds it, and the call never throws. -/
theorem C69_into_new_map_double {A : RastArith K} (hA : A.toArith = roundedArith roundDouble) {res : K}
    (h1 : (2 : K) ^ (-1022 : ℤ) ≤ res) (h2 : res ≤ 2 ^ (1022 : ℤ)) {v : Vec K} {vs : List (Vec K)}
    (hrep : ∀ w ∈ v :: vs, ∀ a, roundDouble (w a) = w a) (hsize : ∀ w ∈ v :: vs, ∀ a, |w a| ≤ 2 ^ 48 * res)
    {triangles : List (ℤ × ℤ × ℤ)}
    (hidx : ∀ t ∈ triangles, ∀ k, k = t.1 ∨ k = t.2.1 ∨ k = t.2.2 → 0 ≤ k ∧ k < ((v :: vs).length : ℤ)) :
    ∃ m, flMeshMap A (fun x => some ⌈x⌉) 2 res v vs = some m ∧
      (∀ w ∈ v :: vs, ∃ i, flRastIndex A m w = some i ∧
        ∀ a, 0 ≤ i a ∧ i a < ((![m.dims.nx, m.dims.ny, m.dims.nz] : Fin 3 → ℕ) a : ℤ)) ∧
      ∀ threw occ', FlMeshRuns A m true (v :: vs) triangles (fun _ => .fin 0) threw occ' →
        threw = false ∧ ∀ j, occ' j = .fin 0 ∨ occ' j = .fin 1 := by
  have h := roundDouble_fineFor h1 h2
  refine C69_into_new_map_rounded hA h hrep (fun a => ?_) hidx
  have hres := h.res0
  obtain ⟨l, hl, el⟩ := meshLow_mem a vs v
  obtain ⟨u, hu, eu⟩ := meshHigh_mem a vs v
  have bl := abs_le.mp (hsize l hl a)
  have bu := abs_le.mp (hsize u hu a)
  rw [el, eu]
  have e1 : (u a - l a) / res ≤ 2 ^ 49 := by
    rw [div_le_iff₀ hres]
    linarith [bl.1, bu.2]
  have e2 : |l a - res| / res ≤ 2 ^ 48 + 1 := by
    rw [div_le_iff₀ hres, abs_le]
    constructor <;> linarith [bl.1, bl.2]
  have e53 : (2 : K) ^ (-53 : ℤ) = 1 / 2 ^ 53 := by rw [zpow_neg, one_div]; norm_cast
  rw [e53, one_div_mul_eq_div, div_le_one (by positivity)]
  calc 8 * ((u a - l a) / res) + 2 * (|l a - res| / res) + 30 ≤ 8 * 2 ^ 49 + 2 * (2 ^ 48 + 1) + 30 := by linarith
    _ ≤ 2 ^ 53 := by norm_num

end

/-- Full statement: a new map holds its mesh, whatever the coordinates.  Far from the world's origin it does not: one point
2^53 + 2 cells away, as a triangle.  The corner of the map is rounded to 2^53, two cells from the point, and the map has two
cells: the call throws. -/
theorem C69_far_mesh_throws :
    ((flMeshMap doubleRast (Fl.ceilInt 64) (.fin 2) (.fin 1) (fun _ => .fin (2 ^ 53 + 2)) []).bind fun m =>
      flTriangleActs doubleRast m true [fun _ => .fin (2 ^ 53 + 2)] (0, 0, 0)) = some [.throw] := by
  decide +kernel

/-- The same point at 2^48 cells is no problem. -/
example : ((flMeshMap doubleRast (Fl.ceilInt 64) (.fin 2) (.fin 1) (fun _ => .fin (2 ^ 48)) []).bind fun m =>
    flTriangleActs doubleRast m true [fun _ => .fin (2 ^ 48)] (0, 0, 0)) = some [.fill (1, 1, 1)] := by
  decide +kernel

/-- A triangle that meets the hypotheses of `C69_into_new_map_double`. -/
example : ∃ A : RastArith ℚ, A.toArith = roundedArith roundDouble ∧ (2 : ℚ) ^ (-1022 : ℤ) ≤ 1 ∧ (1 : ℚ) ≤ 2 ^ (1022 : ℤ) ∧
    ∀ w ∈ ([![1, 2, 3], ![4, -5, 6], ![7, 8, -9]] : List (Vec ℚ)), ∀ a, roundDouble (w a) = w a ∧ |w a| ≤ 2 ^ 48 * 1 := by
  refine ⟨{ exactRast with toArith := roundedArith roundDouble }, rfl, zpow_le_one_of_nonpos₀ (by norm_num) (by norm_num),
    one_le_zpow₀ (by norm_num) (by norm_num), ?_⟩
  have h : ∀ n : ℤ, |n| ≤ 9 → roundDouble (n : ℚ) = n ∧ |(n : ℚ)| ≤ 2 ^ 48 * 1 := fun n hn =>
    ⟨roundDouble_int (hn.trans (by norm_num)), by
      have : |(n : ℚ)| ≤ 9 := by exact_mod_cast hn
      linarith [show (9 : ℚ) ≤ 2 ^ 48 * 1 by norm_num]⟩
  have e : ∀ w ∈ ([![1, 2, 3], ![4, -5, 6], ![7, 8, -9]] : List (Vec ℚ)), ∀ a, ∃ n : ℤ, |n| ≤ 9 ∧ w a = n := by
    intro w hw a
    have hl : ∀ w ∈ ([![1, 2, 3], ![4, -5, 6], ![7, 8, -9]] : List (Vec ℚ)),
        ∃ z ∈ ([![1, 2, 3], ![4, -5, 6], ![7, 8, -9]] : List (Fin 3 → ℤ)), ∀ a, w a = z a := by
      intro w hw
      simp only [List.mem_cons, List.not_mem_nil, or_false] at hw
      rcases hw with rfl | rfl | rfl
      · exact ⟨![1, 2, 3], by simp, fun a => by fin_cases a <;> norm_num⟩
      · exact ⟨![4, -5, 6], by simp, fun a => by fin_cases a <;> norm_num⟩
      · exact ⟨![7, 8, -9], by simp, fun a => by fin_cases a <;> norm_num⟩
    obtain ⟨z, hz, e⟩ := hl w hw
    refine ⟨z a, ?_, e a⟩
    revert a
    have : ∀ z ∈ ([![1, 2, 3], ![4, -5, 6], ![7, 8, -9]] : List (Fin 3 → ℤ)), ∀ a, |z a| ≤ 9 := by decide
    exact fun a => this z hz a
  intro w hw a
  obtain ⟨n, hn, e⟩ := e w hw a
  rw [e]
  exact h n hn

end VGT
