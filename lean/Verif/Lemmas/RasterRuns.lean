import Verif.Lemmas.Rasterize
import Verif.Lemmas.Surface

/-!
What a triangle's or mesh's actions do to the map, for every schedule; which cells a triangle's loop visits.
-/
set_option autoImplicit false
set_option linter.unusedSectionVars false

namespace VGT
open VGT.EDT VGT.Spec

theorem runActs_spec : ∀ (l : List RAct) (occ : Idx → Fl),
    ((runActs l occ).1 = true ↔ RAct.throw ∈ l) ∧
    ((runActs l occ).1 = false → ∀ j, RAct.fill j ∈ l → (runActs l occ).2 j = .fin 1) ∧
    ∀ j, (runActs l occ).2 j = occ j ∨ ((runActs l occ).2 j = .fin 1 ∧ RAct.fill j ∈ l)
  | [], occ => by simp [runActs]
  | .throw :: l, occ => by simp [runActs]
  | .fill i :: l, occ => by
    obtain ⟨h1, h2, h3⟩ := runActs_spec l (fun j => if j = i then .fin 1 else occ j)
    refine ⟨by simpa [runActs] using h1, ?_, ?_⟩
    · intro hf j hj
      rcases List.mem_cons.mp hj with e | hj
      · have e' : j = i := by simpa using e
        subst e'
        rcases h3 j with h | h
        · simpa [runActs] using h
        · exact h.1
      · exact h2 hf j hj
    · intro j
      rcases h3 j with h | h
      · by_cases hji : j = i
        · right
          subst hji
          exact ⟨by simpa [runActs] using h, by simp⟩
        · left
          simpa [runActs, hji] using h
      · right
        exact ⟨h.1, List.mem_cons_of_mem _ h.2⟩

/-- What holds in every state of the parallel loop. -/
structure RastInv (threads0 : List (List RAct)) (occ0 : Idx → Fl) (st : RastState) : Prop where
  len : st.threads.length = threads0.length
  sub : ∀ (t : ℕ) l, st.threads[t]? = some l → ∃ l0, threads0[t]? = some l0 ∧ ∀ a ∈ l, a ∈ l0
  thrown : st.threw = true → ∃ l0 ∈ threads0, RAct.throw ∈ l0
  rest : st.threw = false → ∀ (t : ℕ) l0, threads0[t]? = some l0 → ∃ l, st.threads[t]? = some l ∧
    ∀ a ∈ l0, a ∈ l ∨ ∃ j, a = RAct.fill j ∧ st.occ j = .fin 1
  cells : ∀ j, st.occ j = occ0 j ∨ (st.occ j = .fin 1 ∧ ∃ l0 ∈ threads0, RAct.fill j ∈ l0)

theorem rastInv_init (threads0 : List (List RAct)) (occ0 : Idx → Fl) :
    RastInv threads0 occ0 { threads := threads0, occ := occ0, threw := false } where
  len := rfl
  sub := fun _ l h => ⟨l, h, fun _ ha => ha⟩
  thrown := fun h => absurd h (by simp)
  rest := fun _ _ l0 h => ⟨l0, h, fun _ ha => Or.inl ha⟩
  cells := fun _ => Or.inl rfl

theorem rastInv_step {threads0 : List (List RAct)} {occ0 : Idx → Fl} {st : RastState} (h : RastInv threads0 occ0 st)
    (t : ℕ) : RastInv threads0 occ0 (rastStep st t) := by
  unfold rastStep
  split
  · rename_i i as hget
    have ht : t < st.threads.length := by
      by_contra hc
      rw [List.getElem?_eq_none (not_lt.mp hc)] at hget
      exact absurd hget (by simp)
    obtain ⟨l0, hl0, hsub⟩ := h.sub t _ hget
    have hl0mem : l0 ∈ threads0 := List.mem_of_getElem? hl0
    refine ⟨by simpa using h.len, ?_, h.thrown, ?_, ?_⟩
    · intro t' l hl
      by_cases e : t = t'
      · subst e
        rw [List.getElem?_set_self ht] at hl
        cases hl
        exact ⟨l0, hl0, fun a ha => hsub a (List.mem_cons_of_mem _ ha)⟩
      · rw [List.getElem?_set_ne e] at hl
        exact h.sub t' l hl
    · intro hf t' m0 hm0
      obtain ⟨l, hl, hall⟩ := h.rest hf t' m0 hm0
      have keep : ∀ j, st.occ j = .fin 1 → (if j = i then Fl.fin 1 else st.occ j) = .fin 1 := by
        intro j hj; split_ifs <;> simp_all
      by_cases e : t = t'
      · subst e
        rw [hget] at hl
        cases hl
        refine ⟨as, by simp [List.getElem?_set_self ht], ?_⟩
        intro a ha
        rcases hall a ha with hin | ⟨j, rfl, hj⟩
        · rcases List.mem_cons.mp hin with rfl | hin
          · exact Or.inr ⟨i, rfl, by simp⟩
          · exact Or.inl hin
        · exact Or.inr ⟨j, rfl, keep j hj⟩
      · refine ⟨l, by simp [List.getElem?_set_ne e, hl], ?_⟩
        intro a ha
        rcases hall a ha with hin | ⟨j, rfl, hj⟩
        · exact Or.inl hin
        · exact Or.inr ⟨j, rfl, keep j hj⟩
    · intro j
      by_cases e : j = i
      · right
        subst e
        exact ⟨by simp, l0, hl0mem, hsub _ (by simp)⟩
      · simpa [e] using h.cells j
  · rename_i as hget
    have ht : t < st.threads.length := by
      by_contra hc
      rw [List.getElem?_eq_none (not_lt.mp hc)] at hget
      exact absurd hget (by simp)
    obtain ⟨l0, hl0, hsub⟩ := h.sub t _ hget
    have hl0mem : l0 ∈ threads0 := List.mem_of_getElem? hl0
    refine ⟨by simpa using h.len, ?_, fun _ => ⟨l0, hl0mem, hsub _ (by simp)⟩, fun hf => absurd hf (by simp), h.cells⟩
    intro t' l hl
    by_cases e : t = t'
    · subst e
      rw [List.getElem?_set_self ht] at hl
      cases hl
      exact ⟨l0, hl0, fun a ha => absurd ha (by simp)⟩
    · rw [List.getElem?_set_ne e] at hl
      exact h.sub t' l hl
  · exact h

theorem rastInv_run {threads0 : List (List RAct)} {occ0 : Idx → Fl} : ∀ (sched : List ℕ) {st : RastState},
    RastInv threads0 occ0 st → RastInv threads0 occ0 (sched.foldl rastStep st)
  | [], _, h => h
  | t :: sched, _, h => rastInv_run sched (rastInv_step h t)

/-- Every finished run of a set of threads. -/
theorem sched_spec (threads0 : List (List RAct)) (occ0 : Idx → Fl) (sched : List ℕ)
    (hfin : ∀ l ∈ (sched.foldl rastStep { threads := threads0, occ := occ0, threw := false }).threads, l = []) :
    let st := sched.foldl rastStep { threads := threads0, occ := occ0, threw := false }
    (st.threw = true ↔ ∃ l0 ∈ threads0, RAct.throw ∈ l0) ∧
    (st.threw = false → ∀ j, (∃ l0 ∈ threads0, RAct.fill j ∈ l0) → st.occ j = .fin 1) ∧
    ∀ j, st.occ j = occ0 j ∨ (st.occ j = .fin 1 ∧ ∃ l0 ∈ threads0, RAct.fill j ∈ l0) := by
  intro st
  have h : RastInv threads0 occ0 st := rastInv_run sched (rastInv_init threads0 occ0)
  have hdone : st.threw = false → ∀ l0 ∈ threads0, ∀ a ∈ l0, ∃ j, a = RAct.fill j ∧ st.occ j = .fin 1 := by
    intro hf l0 hl0 a ha
    obtain ⟨t, ht⟩ := List.mem_iff_getElem?.mp hl0
    obtain ⟨l, hl, hall⟩ := h.rest hf t l0 ht
    have hl' : l = [] := hfin l (List.mem_of_getElem? hl)
    subst hl'
    rcases hall a ha with hin | hj
    · exact absurd hin (by simp)
    · exact hj
  refine ⟨⟨h.thrown, ?_⟩, ?_, h.cells⟩
  · rintro ⟨l0, hl0, hmem⟩
    by_contra hc
    obtain ⟨j, hj, -⟩ := hdone (by simpa using hc) l0 hl0 _ hmem
    exact absurd hj (by simp)
  · rintro hf j ⟨l0, hl0, hmem⟩
    obtain ⟨k, hk, hocc⟩ := hdone hf l0 hl0 _ hmem
    cases hk
    exact hocc

/-- One thread alone performs its actions in order. -/
theorem rast_single_thread : ∀ (l : List RAct) (occ : Idx → Fl),
    ∃ n : ℕ, (List.replicate n 0).foldl rastStep { threads := [l], occ := occ, threw := false }
      = { threads := [[]], occ := (runActs l occ).2, threw := (runActs l occ).1 }
  | [], _ => ⟨0, rfl⟩
  | .throw :: l, occ => ⟨1, rfl⟩
  | .fill i :: l, occ => by
    obtain ⟨n, hn⟩ := rast_single_thread l (fun j => if j = i then .fin 1 else occ j)
    exact ⟨n + 1, by rw [List.replicate_succ, List.foldl_cons]; exact hn⟩

section
variable {K : Type} [Field K] [LinearOrder K] [IsStrictOrderedRing K] [FloorRing K]

/-- Some triangle of the mesh has the action. -/
def RastMap.MeshActs (key : Vec K → Vec K → K) (m : RastMap K) (enforce : Bool) (vertices : List (Vec K))
    (triangles : List (ℤ × ℤ × ℤ)) (a : RAct) : Prop := ∃ t ∈ triangles, a ∈ m.triangleActs key enforce vertices t

theorem mem_threads {key : Vec K → Vec K → K} {m : RastMap K} {enforce : Bool} {vertices : List (Vec K)}
    {triangles : List (ℤ × ℤ × ℤ)} {split : List (List ℕ)} (hs : IsSplit triangles.length split) (a : RAct) :
    (∃ l0 ∈ split.map (m.threadActs key enforce vertices triangles), a ∈ l0) ↔
      m.MeshActs key enforce vertices triangles a := by
  constructor
  · rintro ⟨l0, hl0, ha⟩
    obtain ⟨is, his, rfl⟩ := List.mem_map.mp hl0
    obtain ⟨k, hk, hak⟩ := List.mem_flatMap.mp ha
    have hlt : k < triangles.length := List.mem_range.mp (hs.subset (List.mem_flatten.mpr ⟨is, his, hk⟩))
    rw [List.getElem?_eq_getElem hlt] at hak
    exact ⟨_, List.getElem_mem hlt, hak⟩
  · rintro ⟨t, ht, ha⟩
    obtain ⟨k, hlt, rfl⟩ := List.mem_iff_getElem.mp ht
    have hk : k ∈ split.flatten := hs.symm.subset (List.mem_range.mpr hlt)
    obtain ⟨is, his, hkis⟩ := List.mem_flatten.mp hk
    refine ⟨_, List.mem_map_of_mem his, List.mem_flatMap.mpr ⟨k, hkis, ?_⟩⟩
    rw [List.getElem?_eq_getElem hlt]
    exact ha

/-- Every outcome of `RasterizeMesh` on an initialized map. -/
theorem meshRuns_spec {key : Vec K → Vec K → K} {m : RastMap K} {enforce : Bool} {vertices : List (Vec K)}
    {triangles : List (ℤ × ℤ × ℤ)} {occ occ' : Idx → Fl} {threw : Bool} (hinit : m.initialized = true)
    (h : m.MeshRuns key enforce vertices triangles occ threw occ') :
    (threw = true ↔ m.MeshActs key enforce vertices triangles .throw) ∧
    (threw = false → ∀ j, m.MeshActs key enforce vertices triangles (.fill j) → occ' j = .fin 1) ∧
    ∀ j, occ' j = occ j ∨ (occ' j = .fin 1 ∧ m.MeshActs key enforce vertices triangles (.fill j)) := by
  unfold RastMap.MeshRuns at h
  simp only [hinit, Bool.not_true, Bool.false_eq_true, if_false] at h
  obtain ⟨split, hs, sched, hfin, rfl, rfl⟩ := h
  have := sched_spec _ occ sched hfin
  simp only [mem_threads hs] at this
  exact this

/-- `RasterizeMesh` always has an outcome; on one thread it is that of the triangles in order. -/
theorem meshRuns_exists (key : Vec K → Vec K → K) (m : RastMap K) (enforce : Bool) (vertices : List (Vec K))
    (triangles : List (ℤ × ℤ × ℤ)) (occ : Idx → Fl) :
    ∃ threw occ', m.MeshRuns key enforce vertices triangles occ threw occ' := by
  unfold RastMap.MeshRuns
  by_cases hi : m.initialized = true
  · simp only [hi, Bool.not_true, Bool.false_eq_true, if_false]
    obtain ⟨n, hn⟩ := rast_single_thread (m.threadActs key enforce vertices triangles (List.range triangles.length)) occ
    refine ⟨_, _, [List.range triangles.length], by simp [IsSplit], List.replicate n 0, ?_, rfl, rfl⟩
    simp only [List.map_cons, List.map_nil, hn]
    simp
  · exact ⟨true, occ, by simp [hi]⟩

/-! ### The cells of a triangle -/

theorem mem_loopRange' {lo hi k : ℤ} : k ∈ loopRange lo hi ↔ lo ≤ k ∧ k ≤ hi := by
  unfold loopRange
  rw [List.mem_map]
  constructor
  · rintro ⟨n, hn, rfl⟩
    have := List.mem_range.mp hn
    omega
  · rintro ⟨h1, h2⟩
    exact ⟨(k - lo).toNat, List.mem_range.mpr (by omega), by omega⟩

theorem mem_boxOf (m : RastMap K) (v1 v2 v3 : Vec K) (i : ZIdx) :
    i ∈ m.boxOf v1 v2 v3 ↔
      (m.indexOf (lowCorner v1 v2 v3) 0 ≤ i.1 ∧ i.1 ≤ m.indexOf (highCorner v1 v2 v3) 0) ∧
      (m.indexOf (lowCorner v1 v2 v3) 1 ≤ i.2.1 ∧ i.2.1 ≤ m.indexOf (highCorner v1 v2 v3) 1) ∧
      (m.indexOf (lowCorner v1 v2 v3) 2 ≤ i.2.2 ∧ i.2.2 ≤ m.indexOf (highCorner v1 v2 v3) 2) := by
  simp only [RastMap.boxOf, List.mem_flatMap, List.mem_map, mem_loopRange']
  constructor
  · rintro ⟨x, hx, y, hy, z, hz, rfl⟩
    exact ⟨hx, hy, hz⟩
  · rintro ⟨hx, hy, hz⟩
    exact ⟨i.1, hx, i.2.1, hy, i.2.2, hz, rfl⟩

theorem fill_mem {key : Vec K → Vec K → K} {m : RastMap K} {enforce : Bool} {vertices : List (Vec K)}
    {t : ℤ × ℤ × ℤ} {j : Idx} : RAct.fill j ∈ m.triangleActs key enforce vertices t ↔
      ∃ v1 v2 v3, corners vertices t = some (v1, v2, v3) ∧ m.dims.In j ∧ toZ j ∈ m.boxOf v1 v2 v3 ∧
        m.hitBy key v1 v2 v3 (toZ j) = true := by
  unfold RastMap.triangleActs
  cases hc : corners vertices t with
  | none => simp
  | some vs =>
    obtain ⟨v1, v2, v3⟩ := vs
    simp only [List.mem_flatMap, List.mem_filter]
    constructor
    · rintro ⟨i, ⟨hbox, hhit⟩, hact⟩
      unfold actOn at hact
      split_ifs at hact with hb he
      · obtain ⟨k, hk, rfl⟩ := checkInBounds_iff.mp hb
        have e : j = k := by
          have : RAct.fill j = RAct.fill (toN (toZ k)) := by simpa using hact
          have := RAct.fill.inj this
          simpa [toN, VGT.toZ] using this
        subst e
        exact ⟨v1, v2, v3, rfl, hk, hbox, hhit⟩
      · simp at hact
      · simp at hact
    · rintro ⟨w1, w2, w3, e, hj, hbox, hhit⟩
      obtain ⟨rfl, rfl, rfl⟩ : v1 = w1 ∧ v2 = w2 ∧ v3 = w3 := by simpa using e
      refine ⟨toZ j, ⟨hbox, hhit⟩, ?_⟩
      unfold actOn
      rw [if_pos (checkInBounds_iff.mpr ⟨j, hj, rfl⟩)]
      simp [toN, VGT.toZ]

theorem throw_mem {key : Vec K → Vec K → K} {m : RastMap K} {enforce : Bool} {vertices : List (Vec K)}
    {t : ℤ × ℤ × ℤ} : RAct.throw ∈ m.triangleActs key enforce vertices t ↔
      corners vertices t = none ∨ (enforce = true ∧ ∃ v1 v2 v3, corners vertices t = some (v1, v2, v3) ∧
        ∃ i ∈ m.boxOf v1 v2 v3, m.hitBy key v1 v2 v3 i = true ∧ checkInBounds m.dims i = false) := by
  unfold RastMap.triangleActs
  cases hc : corners vertices t with
  | none => simp
  | some vs =>
    obtain ⟨v1, v2, v3⟩ := vs
    simp only [List.mem_flatMap, List.mem_filter]
    constructor
    · rintro ⟨i, ⟨hbox, hhit⟩, hact⟩
      right
      unfold actOn at hact
      split_ifs at hact with hb he
      · simp at hact
      · exact ⟨he, v1, v2, v3, rfl, i, hbox, hhit, by simpa using hb⟩
      · simp at hact
    · rintro (h | ⟨he, w1, w2, w3, e, i, hbox, hhit, hb⟩)
      · exact absurd h (by simp)
      · obtain ⟨rfl, rfl, rfl⟩ : v1 = w1 ∧ v2 = w2 ∧ v3 = w3 := by simpa using e
        refine ⟨i, ⟨hbox, hhit⟩, ?_⟩
        simp [actOn, hb, he]

/-! ### Maps without rotation -/

/-- The map's frame is a pure translation. -/
def RastMap.Unrotated (m : RastMap K) (t : Vec K) : Prop :=
  (∀ i j, m.pose.R i j = if i = j then 1 else 0) ∧ ∀ a, m.pose.t a = t a

theorem indexOf_unrotated {m : RastMap K} {t : Vec K} (h : m.Unrotated t) (p : Vec K) (a : Fin 3) :
    m.indexOf p a = ⌊(p a - t a) / m.s⌋ := by
  obtain ⟨hR, ht⟩ := h
  fin_cases a <;> simp [RastMap.indexOf, cellOf, Pose.applyInv, point4, hR, ht]

theorem centreOf_unrotated {m : RastMap K} {t : Vec K} (h : m.Unrotated t) (i : ZIdx) (a : Fin 3) :
    m.centreOf i a = ((![i.1, i.2.1, i.2.2] : Fin 3 → ℤ) a + 1 / 2 : K) * m.s + t a := by
  obtain ⟨hR, ht⟩ := h
  fin_cases a <;> simp [RastMap.centreOf, Pose.apply, point4, centre, hR, ht]

theorem floor_of_inCell {s x : K} (hs : 0 < s) {k : ℤ} (h1 : (k : K) * s ≤ x) (h2 : x < ((k : K) + 1) * s) :
    ⌊x / s⌋ = k := by
  rw [Int.floor_eq_iff]
  exact ⟨(le_div_iff₀ hs).mpr h1, (div_lt_iff₀ hs).mpr h2⟩

theorem onTriangle_bounds {v1 v2 v3 p : Vec K} (h : OnTriangle v1 v2 v3 p) (a : Fin 3) :
    lowCorner v1 v2 v3 a ≤ p a ∧ p a ≤ highCorner v1 v2 v3 a := by
  obtain ⟨x, y, z, hx, hy, hz, hs, hp⟩ := h
  unfold lowCorner highCorner
  have e : ∀ c : K, c = x * c + y * c + z * c := fun c => by linear_combination (-c) * hs
  constructor
  · rw [e (min (min (v1 a) (v2 a)) (v3 a)), hp]
    have h1 : min (min (v1 a) (v2 a)) (v3 a) ≤ v1 a := (min_le_left _ _).trans (min_le_left _ _)
    have h2 : min (min (v1 a) (v2 a)) (v3 a) ≤ v2 a := (min_le_left _ _).trans (min_le_right _ _)
    have h3 : min (min (v1 a) (v2 a)) (v3 a) ≤ v3 a := min_le_right _ _
    have := mul_le_mul_of_nonneg_left h1 hx
    have := mul_le_mul_of_nonneg_left h2 hy
    have := mul_le_mul_of_nonneg_left h3 hz
    linarith
  · rw [e (max (max (v1 a) (v2 a)) (v3 a)), hp]
    have h1 : v1 a ≤ max (max (v1 a) (v2 a)) (v3 a) := (le_max_left _ _).trans (le_max_left _ _)
    have h2 : v2 a ≤ max (max (v1 a) (v2 a)) (v3 a) := (le_max_right _ _).trans (le_max_left _ _)
    have h3 : v3 a ≤ max (max (v1 a) (v2 a)) (v3 a) := le_max_right _ _
    have := mul_le_mul_of_nonneg_left h1 hx
    have := mul_le_mul_of_nonneg_left h2 hy
    have := mul_le_mul_of_nonneg_left h3 hz
    linarith

/-- The loops visit every cell that the triangle passes through. -/
theorem box_covers {m : RastMap K} {t : Vec K} (h : m.Unrotated t) (hs : 0 < m.s) {v1 v2 v3 : Vec K} {i : ZIdx}
    (hp : PassesThrough m.s t v1 v2 v3 ![i.1, i.2.1, i.2.2]) : i ∈ m.boxOf v1 v2 v3 := by
  obtain ⟨p, hp, hbox⟩ := hp
  have key : ∀ a : Fin 3, m.indexOf (lowCorner v1 v2 v3) a ≤ (![i.1, i.2.1, i.2.2] : Fin 3 → ℤ) a ∧
      (![i.1, i.2.1, i.2.2] : Fin 3 → ℤ) a ≤ m.indexOf (highCorner v1 v2 v3) a := by
    intro a
    have hf := floor_of_inCell hs (hbox a).1 (hbox a).2
    obtain ⟨hlo, hhi⟩ := onTriangle_bounds hp a
    rw [indexOf_unrotated h, indexOf_unrotated h, ← hf]
    exact ⟨Int.floor_le_floor (by rw [div_le_div_iff_of_pos_right hs]; linarith),
      Int.floor_le_floor (by rw [div_le_div_iff_of_pos_right hs]; linarith)⟩
  exact (mem_boxOf _ _ _ _ _).mpr ⟨key 0, key 1, key 2⟩

/-- A point in the box of a cell is at most half a diagonal from its centre. -/
theorem near_centre {m : RastMap K} {t : Vec K} (h : m.Unrotated t) {i : ZIdx} {p : Vec K}
    (hp : BoxHolds m.s t ![i.1, i.2.1, i.2.2] p) : sqDistance p (m.centreOf i) ≤ 3 * (m.s * (1 / 2)) * (m.s * (1 / 2)) := by
  have key : ∀ a : Fin 3, (p a - m.centreOf i a) ^ 2 ≤ (m.s * (1 / 2)) ^ 2 := by
    intro a
    obtain ⟨h1, h2⟩ := hp a
    rw [centreOf_unrotated h]
    generalize ((![i.1, i.2.1, i.2.2] : Fin 3 → ℤ) a : K) = c at *
    apply sq_le_sq'
    · linarith
    · linarith
  unfold sqDistance
  have := key 0
  have := key 1
  have := key 2
  nlinarith

end
end VGT
