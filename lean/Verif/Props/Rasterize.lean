import Verif.Lemmas.RasterRuns
import Mathlib.Data.Fintype.Pi

/-!
C42: mesh rasterization only fills cells, whatever the order and schedule; exceptions.
C43: which cells a triangle fills.

`codeKey` is the comparison the code makes between the three edge candidates; `nearKey` below is the comparison it
would have to make (distance to the query point).
-/
set_option autoImplicit false
set_option linter.unusedSectionVars false

namespace VGT
open VGT.EDT VGT.Spec

section
variable {K : Type} [Field K] [LinearOrder K] [IsStrictOrderedRing K] [FloorRing K]

/-! ### C42 -/

/-- Every outcome, also one that ends in an exception: a cell keeps its value or becomes 1.0, and only cells of the map
change. -/
theorem C42_only_fills {m : RastMap K} {enforce : Bool} {vertices : List (Vec K)} {triangles : List (ℤ × ℤ × ℤ)}
    {occ occ' : Idx → Fl} {threw : Bool} (h : m.MeshRuns codeKey enforce vertices triangles occ threw occ') (j : Idx) :
    occ' j = occ j ∨ (occ' j = .fin 1 ∧ m.dims.In j) := by
  by_cases hi : m.initialized = true
  · rcases (meshRuns_spec hi h).2.2 j with h1 | ⟨h1, t, -, ht⟩
    · exact Or.inl h1
    · obtain ⟨_, _, _, -, hj, -⟩ := fill_mem.mp ht
      exact Or.inr ⟨h1, hj⟩
  · simp only [RastMap.MeshRuns, hi] at h
    exact Or.inl (congrFun h.2 j)

/-- The same for one triangle. -/
theorem C42_triangle_only_fills (m : RastMap K) (enforce : Bool) (vertices : List (Vec K))
    (triangles : List (ℤ × ℤ × ℤ)) (k : ℕ) (occ : Idx → Fl) (j : Idx) :
    (m.rasterizeTriangle codeKey enforce vertices triangles k occ).2 j = occ j ∨
      ((m.rasterizeTriangle codeKey enforce vertices triangles k occ).2 j = .fin 1 ∧ m.dims.In j) := by
  unfold RastMap.rasterizeTriangle
  split_ifs
  · exact Or.inl rfl
  · cases triangles[k]? with
    | none => exact Or.inl rfl
    | some t =>
      rcases (runActs_spec (m.triangleActs codeKey enforce vertices t) occ).2.2 j with h | ⟨h, hf⟩
      · exact Or.inl h
      · obtain ⟨_, _, _, -, hj, -⟩ := fill_mem.mp hf
        exact Or.inr ⟨h, hj⟩

theorem meshActs_perm {key : Vec K → Vec K → K} {m : RastMap K} {enforce : Bool} {vertices : List (Vec K)}
    {triangles triangles' : List (ℤ × ℤ × ℤ)} (hp : triangles.Perm triangles') (a : RAct) :
    m.MeshActs key enforce vertices triangles a ↔ m.MeshActs key enforce vertices triangles' a :=
  ⟨fun ⟨t, ht, h⟩ => ⟨t, hp.subset ht, h⟩, fun ⟨t, ht, h⟩ => ⟨t, hp.symm.subset ht, h⟩⟩

/-- The result depends neither on the order of the triangles nor on the number of threads, the split of the work or the
interleaving: whether an exception is thrown is the same, and without exception the cells are the same. -/
theorem C42_order_and_schedule_independent {m : RastMap K} {enforce : Bool} {vertices : List (Vec K)}
    {triangles triangles' : List (ℤ × ℤ × ℤ)} (hp : triangles.Perm triangles') {occ occ1 occ2 : Idx → Fl}
    {threw1 threw2 : Bool} (h1 : m.MeshRuns codeKey enforce vertices triangles occ threw1 occ1)
    (h2 : m.MeshRuns codeKey enforce vertices triangles' occ threw2 occ2) :
    threw1 = threw2 ∧ (threw1 = false → occ1 = occ2) := by
  by_cases hi : m.initialized = true
  · obtain ⟨a1, b1, c1⟩ := meshRuns_spec hi h1
    obtain ⟨a2, b2, c2⟩ := meshRuns_spec hi h2
    have hthrew : threw1 = threw2 := by
      rw [Bool.eq_iff_iff, a1, a2, meshActs_perm hp]
    refine ⟨hthrew, fun hf => funext fun j => ?_⟩
    rcases c1 j with e1 | ⟨e1, f1⟩
    · rcases c2 j with e2 | ⟨e2, f2⟩
      · rw [e1, e2]
      · rw [b1 hf j ((meshActs_perm hp _).mpr f2), e2]
    · rw [e1, b2 (hthrew ▸ hf) j ((meshActs_perm hp _).mp f1)]
  · simp only [RastMap.MeshRuns, hi] at h1 h2
    refine ⟨h1.1.trans h2.1.symm, fun hf => ?_⟩
    have := h1.1
    rw [hf] at this
    exact absurd this (by simp)

/-- There is always an outcome. -/
theorem C42_has_outcome (m : RastMap K) (enforce : Bool) (vertices : List (Vec K)) (triangles : List (ℤ × ℤ × ℤ))
    (occ : Idx → Fl) : ∃ threw occ', m.MeshRuns codeKey enforce vertices triangles occ threw occ' :=
  meshRuns_exists _ _ _ _ _ _

/-- Rasterizing the same mesh again changes nothing. -/
theorem C42_idempotent {m : RastMap K} {enforce : Bool} {vertices : List (Vec K)} {triangles : List (ℤ × ℤ × ℤ)}
    {occ occ1 occ2 : Idx → Fl} {threw : Bool} (h1 : m.MeshRuns codeKey enforce vertices triangles occ false occ1)
    (h2 : m.MeshRuns codeKey enforce vertices triangles occ1 threw occ2) : threw = false ∧ occ2 = occ1 := by
  by_cases hi : m.initialized = true
  · obtain ⟨a1, b1, c1⟩ := meshRuns_spec hi h1
    obtain ⟨a2, b2, c2⟩ := meshRuns_spec hi h2
    refine ⟨?_, funext fun j => ?_⟩
    · rw [Bool.eq_false_iff, Ne, a2, ← a1]
      simp
    · rcases c2 j with e | ⟨e, f⟩
      · exact e
      · rw [e, b1 rfl j f]
  · simp only [RastMap.MeshRuns, hi] at h1
    exact absurd h1.1 (by simp)

/-- Calling `RasterizeTriangle` for the triangles one after the other, in any order, gives the result of
`RasterizeMesh`. -/
theorem C42_triangle_by_triangle {m : RastMap K} {enforce : Bool} {vertices : List (Vec K)}
    {triangles : List (ℤ × ℤ × ℤ)} {occ occ' : Idx → Fl}
    (h : m.MeshRuns codeKey enforce vertices triangles occ false occ') {order : List ℕ}
    (ho : order.Perm (List.range triangles.length)) :
    order.foldl (fun r k =>
        let r' := m.rasterizeTriangle codeKey enforce vertices triangles k r.2
        (r.1 || r'.1, r'.2)) (false, occ) = (false, occ') := by
  have hi : m.initialized = true := by
    by_contra hi
    have hi' : m.initialized = false := by simpa using hi
    simp [RastMap.MeshRuns, hi'] at h
  obtain ⟨a, b, c⟩ := meshRuns_spec hi h
  have nothrow : ∀ t ∈ triangles, RAct.throw ∉ m.triangleActs codeKey enforce vertices t := by
    intro t ht hc
    have := a.mpr ⟨t, ht, hc⟩
    exact absurd this (by simp)
  -- the fold over any list of valid triangle numbers
  have fold : ∀ (l : List ℕ) (o : Idx → Fl), (∀ k ∈ l, k < triangles.length) →
      ∃ o', l.foldl (fun r k =>
        let r' := m.rasterizeTriangle codeKey enforce vertices triangles k r.2
        (r.1 || r'.1, r'.2)) (false, o) = (false, o') ∧
        (∀ k ∈ l, ∀ t, triangles[k]? = some t → ∀ j, RAct.fill j ∈ m.triangleActs codeKey enforce vertices t → o' j = .fin 1) ∧
        ∀ j, o' j = o j ∨ (o' j = .fin 1 ∧ ∃ k ∈ l, ∃ t, triangles[k]? = some t ∧
          RAct.fill j ∈ m.triangleActs codeKey enforce vertices t) := by
    intro l
    induction l with
    | nil => intro o _; exact ⟨o, rfl, by simp, fun j => Or.inl rfl⟩
    | cons k l ih =>
      intro o hk
      have hlt : k < triangles.length := hk k (by simp)
      have hget : triangles[k]? = some triangles[k] := List.getElem?_eq_getElem hlt
      obtain ⟨s1, s2, s3⟩ := runActs_spec (m.triangleActs codeKey enforce vertices triangles[k]) o
      have hrt : m.rasterizeTriangle codeKey enforce vertices triangles k o
          = runActs (m.triangleActs codeKey enforce vertices triangles[k]) o := by
        simp [RastMap.rasterizeTriangle, hi, hget]
      have hfalse : (runActs (m.triangleActs codeKey enforce vertices triangles[k]) o).1 = false := by
        rw [Bool.eq_false_iff, Ne, s1]
        exact nothrow _ (List.getElem_mem hlt)
      obtain ⟨o', e, f1, f2⟩ := ih (runActs (m.triangleActs codeKey enforce vertices triangles[k]) o).2
        (fun k' hk' => hk k' (List.mem_cons_of_mem _ hk'))
      refine ⟨o', ?_, ?_, ?_⟩
      · rw [List.foldl_cons]
        simp only [hrt, hfalse, Bool.or_self]
        exact e
      · intro k' hk' t ht j hj
        rcases List.mem_cons.mp hk' with rfl | hk'
        · rw [hget] at ht
          cases ht
          rcases f2 j with g | g
          · rw [g]; exact s2 hfalse j hj
          · exact g.1
        · exact f1 k' hk' t ht j hj
      · intro j
        rcases f2 j with g | ⟨g, k', hk', t, ht, hj⟩
        · rcases s3 j with g' | ⟨g', hf⟩
          · exact Or.inl (g.trans g')
          · exact Or.inr ⟨g.trans g', k, by simp, _, hget, hf⟩
        · exact Or.inr ⟨g, k', List.mem_cons_of_mem _ hk', t, ht, hj⟩
  obtain ⟨o', e, f1, f2⟩ := fold order occ (fun k hk => List.mem_range.mp (ho.subset hk))
  rw [e]
  congr 1
  funext j
  rcases f2 j with g | ⟨g, k, -, t, ht, hj⟩
  · rcases c j with g' | ⟨g', t, ht, hj⟩
    · rw [g, g']
    · obtain ⟨k, hlt, rfl⟩ := List.mem_iff_getElem.mp ht
      rw [g', f1 k (ho.symm.subset (List.mem_range.mpr hlt)) _ (List.getElem?_eq_getElem hlt) j hj]
  · rw [g, b rfl j ⟨t, List.mem_of_getElem? ht, hj⟩]

theorem corners_isSome {vertices : List (Vec K)} {t : ℤ × ℤ × ℤ}
    (h : ∀ k, k = t.1 ∨ k = t.2.1 ∨ k = t.2.2 → 0 ≤ k ∧ k < vertices.length) :
    ∃ v1 v2 v3, corners vertices t = some (v1, v2, v3) ∧ v1 ∈ vertices ∧ v2 ∈ vertices ∧ v3 ∈ vertices := by
  have one : ∀ k : ℤ, 0 ≤ k ∧ k < vertices.length → ∃ v, vertexAt vertices k = some v ∧ v ∈ vertices := by
    rintro k ⟨h0, h1⟩
    have hlt : k.toNat < vertices.length := by omega
    exact ⟨vertices[k.toNat], by simp [vertexAt, h0, List.getElem?_eq_getElem hlt], List.getElem_mem hlt⟩
  obtain ⟨v1, e1, m1⟩ := one t.1 (h _ (Or.inl rfl))
  obtain ⟨v2, e2, m2⟩ := one t.2.1 (h _ (Or.inr (Or.inl rfl)))
  obtain ⟨v3, e3, m3⟩ := one t.2.2 (h _ (Or.inr (Or.inr rfl)))
  exact ⟨v1, v2, v3, by simp [corners, e1, e2, e3], m1, m2, m3⟩

/-- Without enforcement nothing is thrown, wherever the mesh lies. -/
theorem C42_no_enforcement_no_throw {m : RastMap K} {vertices : List (Vec K)} {triangles : List (ℤ × ℤ × ℤ)}
    {occ occ' : Idx → Fl} {threw : Bool} (hinit : m.initialized = true)
    (hidx : ∀ t ∈ triangles, ∀ k, k = t.1 ∨ k = t.2.1 ∨ k = t.2.2 → 0 ≤ k ∧ k < vertices.length)
    (h : m.MeshRuns codeKey false vertices triangles occ threw occ') : threw = false := by
  rw [Bool.eq_false_iff, Ne, (meshRuns_spec hinit h).1]
  rintro ⟨t, ht, hthrow⟩
  rcases throw_mem.mp hthrow with hc | ⟨he, -⟩
  · obtain ⟨_, _, _, e, -⟩ := corners_isSome (hidx t ht)
    rw [hc] at e
    exact absurd e (by simp)
  · exact absurd he (by simp)

/-- A vertex number that does not exist makes the call throw, with or without enforcement. -/
theorem C42_bad_vertex_throws {m : RastMap K} {enforce : Bool} {vertices : List (Vec K)}
    {triangles : List (ℤ × ℤ × ℤ)} {occ occ' : Idx → Fl} {threw : Bool} (hinit : m.initialized = true)
    {t : ℤ × ℤ × ℤ} (ht : t ∈ triangles) {k : ℤ} (hk : k = t.1 ∨ k = t.2.1 ∨ k = t.2.2)
    (hbad : k < 0 ∨ (vertices.length : ℤ) ≤ k)
    (h : m.MeshRuns codeKey enforce vertices triangles occ threw occ') : threw = true := by
  rw [(meshRuns_spec hinit h).1]
  refine ⟨t, ht, throw_mem.mpr (Or.inl ?_)⟩
  have hnone : vertexAt vertices k = none := by
    unfold vertexAt
    split_ifs with h0
    · exact List.getElem?_eq_none (by omega)
    · rfl
  rcases hk with rfl | rfl | rfl
  · simp [corners, hnone]
  · cases vertexAt vertices t.1 <;> simp [corners, hnone]
  · cases h1 : vertexAt vertices t.1 <;> cases h2 : vertexAt vertices t.2.1 <;> simp [corners, hnone, h1, h2]

/-- A map that is not initialized: an exception and no change. -/
theorem C42_uninitialized_throws {m : RastMap K} {enforce : Bool} {vertices : List (Vec K)}
    {triangles : List (ℤ × ℤ × ℤ)} {occ occ' : Idx → Fl} {threw : Bool} (hinit : m.initialized = false)
    (h : m.MeshRuns codeKey enforce vertices triangles occ threw occ') : threw = true ∧ occ' = occ := by
  simpa [RastMap.MeshRuns, hinit] using h

theorem box_in_map {m : RastMap K} {t : Vec K} (hm : m.Unrotated t) (hs : 0 < m.s) {v1 v2 v3 : Vec K}
    (hin : ∀ v, v = v1 ∨ v = v2 ∨ v = v3 → InGridBox ![m.dims.nx, m.dims.ny, m.dims.nz] m.s fun a => v a - t a)
    {i : ZIdx} (hi : i ∈ m.boxOf v1 v2 v3) : checkInBounds m.dims i = true := by
  have h1 := hin v1 (Or.inl rfl)
  have h2 := hin v2 (Or.inr (Or.inl rfl))
  have h3 := hin v3 (Or.inr (Or.inr rfl))
  have lo : ∀ a, 0 ≤ m.indexOf (lowCorner v1 v2 v3) a := by
    intro a
    rw [indexOf_unrotated hm]
    apply Int.floor_nonneg.mpr
    apply div_nonneg _ hs.le
    have := (h1 a).1; have := (h2 a).1; have := (h3 a).1
    have : t a ≤ lowCorner v1 v2 v3 a := le_min (le_min (by linarith) (by linarith)) (by linarith)
    linarith
  have hi' : ∀ a, m.indexOf (highCorner v1 v2 v3) a < ((![m.dims.nx, m.dims.ny, m.dims.nz] : Fin 3 → ℕ) a : ℤ) := by
    intro a
    rw [indexOf_unrotated hm, Int.floor_lt]
    rw [div_lt_iff₀ hs]
    have := (h1 a).2; have := (h2 a).2; have := (h3 a).2
    have : highCorner v1 v2 v3 a < t a + ((![m.dims.nx, m.dims.ny, m.dims.nz] : Fin 3 → ℕ) a : K) * m.s :=
      max_lt (max_lt (by linarith) (by linarith)) (by linarith)
    push_cast
    linarith
  have hb := (mem_boxOf _ _ _ _ _).mp hi
  have a0 := lo 0; have a1 := lo 1; have a2 := lo 2
  have b0 : m.indexOf (highCorner v1 v2 v3) 0 < (m.dims.nx : ℤ) := hi' 0
  have b1 : m.indexOf (highCorner v1 v2 v3) 1 < (m.dims.ny : ℤ) := hi' 1
  have b2 : m.indexOf (highCorner v1 v2 v3) 2 < (m.dims.nz : ℤ) := hi' 2
  simp only [checkInBounds, Bool.and_eq_true, decide_eq_true_eq]
  obtain ⟨⟨c0, d0⟩, ⟨c1, d1⟩, ⟨c2, d2⟩⟩ := hb
  refine ⟨⟨⟨⟨⟨?_, ?_⟩, ?_⟩, ?_⟩, ?_⟩, ?_⟩ <;> omega

/-- A mesh whose vertices lie in a map without rotation never throws, also with enforcement. -/
theorem C42_contained_never_throws {m : RastMap K} {t : Vec K} (hm : m.Unrotated t) (hs : 0 < m.s)
    (hinit : m.initialized = true) {enforce : Bool} {vertices : List (Vec K)} {triangles : List (ℤ × ℤ × ℤ)}
    (hidx : ∀ t ∈ triangles, ∀ k, k = t.1 ∨ k = t.2.1 ∨ k = t.2.2 → 0 ≤ k ∧ k < vertices.length)
    (hin : ∀ v ∈ vertices, InGridBox ![m.dims.nx, m.dims.ny, m.dims.nz] m.s fun a => v a - t a)
    {occ occ' : Idx → Fl} {threw : Bool} (h : m.MeshRuns codeKey enforce vertices triangles occ threw occ') :
    threw = false := by
  rw [Bool.eq_false_iff, Ne, (meshRuns_spec hinit h).1]
  rintro ⟨t, ht, hthrow⟩
  obtain ⟨v1, v2, v3, e, m1, m2, m3⟩ := corners_isSome (hidx t ht)
  rcases throw_mem.mp hthrow with hc | ⟨-, w1, w2, w3, e', i, hi, -, hb⟩
  · rw [hc] at e
    exact absurd e (by simp)
  · rw [e] at e'
    obtain ⟨rfl, rfl, rfl⟩ : v1 = w1 ∧ v2 = w2 ∧ v3 = w3 := by simpa using e'
    have := box_in_map hm hs (fun v hv => by rcases hv with rfl | rfl | rfl <;> exact hin _ (by assumption)) hi
    rw [hb] at this
    exact absurd this (by simp)

theorem meshLow_le (v : Vec K) (vs : List (Vec K)) (a : Fin 3) : ∀ w ∈ v :: vs, meshLow v vs a ≤ w a := by
  induction vs generalizing v with
  | nil => intro w hw; simp at hw; subst hw; exact le_rfl
  | cons u us ih =>
    have hstep : meshLow v (u :: us) = meshLow (fun a => min (v a) (u a)) us := rfl
    intro w hw
    rw [hstep]
    have hfirst := ih (fun a => min (v a) (u a)) _ (List.mem_cons_self)
    rcases List.mem_cons.mp hw with rfl | hw
    · exact hfirst.trans (min_le_left _ _)
    · rcases List.mem_cons.mp hw with rfl | hw
      · exact hfirst.trans (min_le_right _ _)
      · exact ih _ w (List.mem_cons_of_mem _ hw)

theorem le_meshHigh (v : Vec K) (vs : List (Vec K)) (a : Fin 3) : ∀ w ∈ v :: vs, w a ≤ meshHigh v vs a := by
  induction vs generalizing v with
  | nil => intro w hw; simp at hw; subst hw; exact le_rfl
  | cons u us ih =>
    have hstep : meshHigh v (u :: us) = meshHigh (fun a => max (v a) (u a)) us := rfl
    intro w hw
    rw [hstep]
    have hfirst := ih (fun a => max (v a) (u a)) _ (List.mem_cons_self)
    rcases List.mem_cons.mp hw with rfl | hw
    · exact (le_max_left _ _).trans hfirst
    · rcases List.mem_cons.mp hw with rfl | hw
      · exact (le_max_right _ _).trans hfirst
      · exact ih _ w (List.mem_cons_of_mem _ hw)

/-- The map that `RasterizeMeshIntoOccupancyMap` builds contains the mesh, and the call does not throw. -/
theorem C42_into_new_map {resolution : K} (hres : 0 < resolution) {v : Vec K} {vs : List (Vec K)}
    {triangles : List (ℤ × ℤ × ℤ)}
    (hidx : ∀ t ∈ triangles, ∀ k, k = t.1 ∨ k = t.2.1 ∨ k = t.2.2 → 0 ≤ k ∧ k < ((v :: vs).length : ℤ)) :
    ∃ m : RastMap K, meshMap resolution v vs = some m ∧ m.s = resolution ∧
      (∃ t, m.Unrotated t ∧
        ∀ w ∈ v :: vs, InGridBox ![m.dims.nx, m.dims.ny, m.dims.nz] m.s fun a => w a - t a) ∧
      ∀ threw occ', MeshMapRuns codeKey resolution v vs triangles threw occ' →
        threw = false ∧ ∀ j, occ' j = .fin 0 ∨ occ' j = .fin 1 := by
  have hm : meshMap resolution v vs = some
      { initialized := true,
        dims := ⟨⌈(meshHigh v vs 0 - meshLow v vs 0 + resolution * 2) / resolution⌉.toNat,
          ⌈(meshHigh v vs 1 - meshLow v vs 1 + resolution * 2) / resolution⌉.toNat,
          ⌈(meshHigh v vs 2 - meshLow v vs 2 + resolution * 2) / resolution⌉.toNat⟩, s := resolution,
        pose := ⟨fun i j => if i = j then 1 else 0, fun a => meshLow v vs a - resolution⟩ } := by
    simp [meshMap, not_le.mpr hres]
  have hbox : ∀ w ∈ v :: vs, InGridBox
      ![⌈(meshHigh v vs 0 - meshLow v vs 0 + resolution * 2) / resolution⌉.toNat,
        ⌈(meshHigh v vs 1 - meshLow v vs 1 + resolution * 2) / resolution⌉.toNat,
        ⌈(meshHigh v vs 2 - meshLow v vs 2 + resolution * 2) / resolution⌉.toNat] resolution
      fun a => w a - (meshLow v vs a - resolution) := by
    intro w hw a
    have h1 := meshLow_le v vs a w hw
    have h2 := le_meshHigh v vs a w hw
    have hn : ∀ b : Fin 3, meshHigh v vs b - meshLow v vs b + resolution * 2
        ≤ ((⌈(meshHigh v vs b - meshLow v vs b + resolution * 2) / resolution⌉.toNat : ℕ) : K) * resolution := by
      intro b
      rw [← div_le_iff₀ hres]
      have hc := Int.le_ceil ((meshHigh v vs b - meshLow v vs b + resolution * 2) / resolution)
      refine hc.trans ?_
      have := Int.self_le_toNat ⌈(meshHigh v vs b - meshLow v vs b + resolution * 2) / resolution⌉
      exact_mod_cast this
    have hna := hn a
    refine ⟨by simp only; linarith, ?_⟩
    have e : ((![⌈(meshHigh v vs 0 - meshLow v vs 0 + resolution * 2) / resolution⌉.toNat,
          ⌈(meshHigh v vs 1 - meshLow v vs 1 + resolution * 2) / resolution⌉.toNat,
          ⌈(meshHigh v vs 2 - meshLow v vs 2 + resolution * 2) / resolution⌉.toNat] : Fin 3 → ℕ) a)
        = ⌈(meshHigh v vs a - meshLow v vs a + resolution * 2) / resolution⌉.toNat := by
      fin_cases a <;> rfl
    simp only [e]
    linarith
  refine ⟨_, hm, rfl, ⟨fun a => meshLow v vs a - resolution, ⟨fun _ _ => rfl, fun _ => rfl⟩, hbox⟩, ?_⟩
  intro threw occ' hrun
  simp only [MeshMapRuns, hm] at hrun
  refine ⟨C42_contained_never_throws (t := fun a => meshLow v vs a - resolution) ⟨fun _ _ => rfl, fun _ => rfl⟩ hres rfl
    hidx hbox hrun, fun j => ?_⟩
  rcases C42_only_fills hrun j with h | h
  · exact Or.inl h
  · exact Or.inr h.1

/-- A resolution that is not positive makes every call throw. -/
theorem C42_bad_resolution_throws {resolution : K} (hres : resolution ≤ 0) {v : Vec K} {vs : List (Vec K)}
    {triangles : List (ℤ × ℤ × ℤ)} {threw : Bool} {occ' : Idx → Fl} (h : MeshMapRuns codeKey resolution v vs triangles threw occ') :
    threw = true := by
  have hm : meshMap resolution v vs = none := by simp [meshMap, hres]
  simp only [MeshMapRuns, hm] at h
  exact h

example : MeshMapRuns codeKey (0 : ℚ) (fun _ => 1) [] [] true fun _ => .fin 0 := by
  simp [MeshMapRuns, meshMap]

/-! ### C43 -/

/-- The code's side tests decide whether the foot of the perpendicular lies on the triangle. -/
theorem projectsInside_iff_projectsOnto {v1 v2 v3 : Vec K} (h : ProperTriangle v1 v2 v3) (q : Vec K) :
    projectsInside v1 v2 v3 q = true ↔ ProjectsOnto v1 v2 v3 q := by
  constructor
  · intro hin
    refine ⟨foot v1 v2 v3 q, (foot_isClosest h hin).1, ?_, ?_⟩
    · have hf := foot_apply v1 v2 v3 q
      have hp := normal_perp2 v1 v2 v3
      simp only at hf
      simp only [hf]
      simp only [dot3, vsub] at hp
      linear_combination (dot3 (cross3 (vsub v2 v1) (vsub v3 v1)) (vsub q v1) / sqNorm (cross3 (vsub v2 v1) (vsub v3 v1))) * hp
    · have hf := foot_apply v1 v2 v3 q
      have hp := normal_perp3 v1 v2 v3
      simp only at hf
      simp only [hf]
      simp only [dot3, vsub] at hp
      linear_combination (dot3 (cross3 (vsub v2 v1) (vsub v3 v1)) (vsub q v1) / sqNorm (cross3 (vsub v2 v1) (vsub v3 v1))) * hp
  · rintro ⟨f, ⟨x, y, z, hx, hy, hz, hs, hf⟩, h2, h3⟩
    have hpos := normal_pos h
    -- side tests of `q` are those of the foot
    have side : ∀ e : Vec K, (∃ α β : K, ∀ a, e a = α * (v2 a - v1 a) + β * (v3 a - v1 a)) →
        dot3 (cross3 (vsub v2 v1) (vsub v3 v1)) (cross3 e (vsub q f)) = 0 := by
      rintro e ⟨α, β, he⟩
      have hA : dot3 (vsub v2 v1) (vsub q f) = 0 := by simp only [dot3, vsub]; linear_combination h2
      have hB : dot3 (vsub v3 v1) (vsub q f) = 0 := by simp only [dot3, vsub]; linear_combination h3
      have he' : ∀ a, e a = α * vsub v2 v1 a + β * vsub v3 v1 a := he
      generalize vsub v2 v1 = A at *
      generalize vsub v3 v1 = B at *
      generalize vsub q f = w at *
      have key : dot3 (cross3 A B) (cross3 e w) = dot3 A e * dot3 B w - dot3 A w * dot3 B e := by
        simp [dot3, cross3]; ring
      rw [key, hA, hB]; ring
    have lin : ∀ a b : Vec K, sideOf (cross3 (vsub v2 v1) (vsub v3 v1)) a b q
        = sideOf (cross3 (vsub v2 v1) (vsub v3 v1)) a b f
          + dot3 (cross3 (vsub v2 v1) (vsub v3 v1)) (cross3 (vsub b a) (vsub q f)) := by
      intro a b
      generalize cross3 (vsub v2 v1) (vsub v3 v1) = n
      simp [sideOf, dot3, cross3, vsub]; ring
    have hx' : x = 1 - y - z := by linarith
    have s12 : sideOf (cross3 (vsub v2 v1) (vsub v3 v1)) v1 v2 f = z * sqNorm (cross3 (vsub v2 v1) (vsub v3 v1)) := by
      simp [sideOf, sqNorm, dot3, cross3, vsub, hf, hx']; ring
    have s23 : sideOf (cross3 (vsub v2 v1) (vsub v3 v1)) v2 v3 f = x * sqNorm (cross3 (vsub v2 v1) (vsub v3 v1)) := by
      simp [sideOf, sqNorm, dot3, cross3, vsub, hf, hx']; ring
    have s31 : sideOf (cross3 (vsub v2 v1) (vsub v3 v1)) v3 v1 f = y * sqNorm (cross3 (vsub v2 v1) (vsub v3 v1)) := by
      simp [sideOf, sqNorm, dot3, cross3, vsub, hf, hx']; ring
    rw [projectsInside_iff, lin, lin, lin, s12, s23, s31,
      side (vsub v2 v1) ⟨1, 0, fun a => by simp [vsub]⟩,
      side (vsub v3 v2) ⟨-1, 1, fun a => by simp [vsub]⟩,
      side (vsub v1 v3) ⟨0, -1, fun a => by simp [vsub]⟩]
    refine ⟨⟨?_, ?_⟩, ?_⟩
    · have := mul_nonneg hz hpos.le; linarith
    · have := mul_nonneg hx hpos.le; linarith
    · have := mul_nonneg hy hpos.le; linarith

/-- The comparison that would be right: squared distance of the candidate to the query point. -/
def nearKey (q c : Vec K) : K := sqDistance c q

/-- The candidate that the code chooses for the query point `q` is the nearest of the three edge candidates. -/
def ChoiceIsNearest (v1 v2 v3 q : Vec K) : Prop :=
  ∀ c, (c = closestOnSegment v1 v2 q ∨ c = closestOnSegment v2 v3 q ∨ c = closestOnSegment v3 v1 q) →
    sqDistance (closestOnTriangle v1 v2 v3 (cross3 (vsub v2 v1) (vsub v3 v1)) q) q ≤ sqDistance c q

/-- Full statement: the computed point is the closest point of the triangle.  Proved if the query point projects onto
the triangle.  Missing: query points beside the triangle, where it fails (`C43_not_the_closest`). -/
theorem C43_closest_point_partial {v1 v2 v3 : Vec K} (h : ProperTriangle v1 v2 v3) {q : Vec K}
    (hq : ProjectsOnto v1 v2 v3 q) :
    IsClosest (OnTriangle v1 v2 v3) q (closestOnTriangle v1 v2 v3 (cross3 (vsub v2 v1) (vsub v3 v1)) q) := by
  have hin := (projectsInside_iff_projectsOnto h q).mpr hq
  have : closestOnTriangle v1 v2 v3 (cross3 (vsub v2 v1) (vsub v3 v1)) q = foot v1 v2 v3 q := by
    simp [closestOnTriangle, closestOnTriangleBy, hin, foot]
  rw [this]
  exact foot_isClosest h hin

/-- The three edge candidates are right: each is the closest point of its edge, and is a point of the triangle. -/
theorem C43_edge_candidates {v1 v2 v3 q : Vec K} :
    IsClosest (OnSegment v1 v2) q (closestOnSegment v1 v2 q) ∧ IsClosest (OnSegment v2 v3) q (closestOnSegment v2 v3 q) ∧
      IsClosest (OnSegment v3 v1) q (closestOnSegment v3 v1 q) :=
  ⟨⟨closestOnSegment_on _ _ _, fun _ => closestOnSegment_le _ _ _⟩,
    ⟨closestOnSegment_on _ _ _, fun _ => closestOnSegment_le _ _ _⟩,
    ⟨closestOnSegment_on _ _ _, fun _ => closestOnSegment_le _ _ _⟩⟩

/-- With the right comparison the computed point is the closest point, for every query point. -/
theorem C43_repaired_closest_point {v1 v2 v3 : Vec K} (h : ProperTriangle v1 v2 v3) (q : Vec K) :
    IsClosest (OnTriangle v1 v2 v3) q
      (closestOnTriangleBy (nearKey q) v1 v2 v3 (cross3 (vsub v2 v1) (vsub v3 v1)) q) := by
  refine closestBy_isClosest _ h q fun _ c hc => ?_
  have := pickCandidate_min (nearKey q) (closestOnSegment v1 v2 q) (closestOnSegment v2 v3 q) (closestOnSegment v3 v1 q)
  rcases hc with rfl | rfl | rfl
  · exact this.1
  · exact this.2.1
  · exact this.2.2

/-- Nothing far away is filled: a cell that changes has a point of one of the triangles within half a cell diagonal of its
centre.  For every pose of the map. -/
theorem C43_only_near_cells {m : RastMap K} {enforce : Bool} {vertices : List (Vec K)} {triangles : List (ℤ × ℤ × ℤ)}
    {occ occ' : Idx → Fl} {threw : Bool} (h : m.MeshRuns codeKey enforce vertices triangles occ threw occ') {j : Idx}
    (hj : occ' j ≠ occ j)
    (hproper : ∀ t ∈ triangles, ∀ v1 v2 v3, corners vertices t = some (v1, v2, v3) → ProperTriangle v1 v2 v3) :
    ∃ t ∈ triangles, ∃ v1 v2 v3, corners vertices t = some (v1, v2, v3) ∧
      ∃ p, OnTriangle v1 v2 v3 p ∧ 4 * sqDistance p (m.centreOf (toZ j)) ≤ 3 * m.s ^ 2 := by
  by_cases hi : m.initialized = true
  · rcases (meshRuns_spec hi h).2.2 j with h1 | ⟨-, t, ht, hf⟩
    · exact absurd h1 hj
    · obtain ⟨v1, v2, v3, hc, -, -, hhit⟩ := fill_mem.mp hf
      refine ⟨t, ht, v1, v2, v3, hc, _, closestBy_onTriangle (codeKey (m.centreOf (toZ j))) (hproper t ht _ _ _ hc)
        (m.centreOf (toZ j)), ?_⟩
      simp only [RastMap.hitBy, decide_eq_true_eq, sqNorm_vsub] at hhit
      linarith
  · simp only [RastMap.MeshRuns, hi] at h
    exact absurd (congrFun h.2 j) hj

theorem hitBy_of_closest {key : Vec K → Vec K → K} {m : RastMap K} {t : Vec K} (hm : m.Unrotated t) {v1 v2 v3 : Vec K}
    {i : ZIdx} (hpass : PassesThrough m.s t v1 v2 v3 ![i.1, i.2.1, i.2.2])
    (hc : IsClosest (OnTriangle v1 v2 v3) (m.centreOf i)
      (closestOnTriangleBy (key (m.centreOf i)) v1 v2 v3 (cross3 (vsub v2 v1) (vsub v3 v1)) (m.centreOf i))) :
    m.hitBy key v1 v2 v3 i = true := by
  obtain ⟨p, hp, hbox⟩ := hpass
  simp only [RastMap.hitBy, decide_eq_true_eq, sqNorm_vsub]
  exact (hc.2 p hp).trans (near_centre hm hbox)

/-- Full statement: every cell of the map that a triangle passes through is filled.  Proved for maps without rotation and
cells whose centre projects onto the triangle, or for which the code happens to choose the nearest of its three edge
candidates.  Missing: the other cells, which can stay empty (`C43_misses_cells`), and rotated maps
(`C43_rotated_map_stays_empty`). -/
theorem C43_partial {m : RastMap K} {t : Vec K} (hm : m.Unrotated t) (hs : 0 < m.s) (hinit : m.initialized = true)
    {enforce : Bool} {vertices : List (Vec K)} {triangles : List (ℤ × ℤ × ℤ)} {occ occ' : Idx → Fl}
    (h : m.MeshRuns codeKey enforce vertices triangles occ false occ') {tri : ℤ × ℤ × ℤ} (htri : tri ∈ triangles)
    {v1 v2 v3 : Vec K} (hc : corners vertices tri = some (v1, v2, v3)) (hproper : ProperTriangle v1 v2 v3) {j : Idx}
    (hj : m.dims.In j) (hpass : PassesThrough m.s t v1 v2 v3 ![(j.1 : ℤ), (j.2.1 : ℤ), (j.2.2 : ℤ)])
    (hcase : ProjectsOnto v1 v2 v3 (fun a => ((![(j.1 : ℤ), (j.2.1 : ℤ), (j.2.2 : ℤ)] : Fin 3 → ℤ) a + 1 / 2 : K) * m.s + t a) ∨
      ChoiceIsNearest v1 v2 v3 (fun a => ((![(j.1 : ℤ), (j.2.1 : ℤ), (j.2.2 : ℤ)] : Fin 3 → ℤ) a + 1 / 2 : K) * m.s + t a)) :
    occ' j = .fin 1 := by
  refine (meshRuns_spec hinit h).2.1 rfl j ⟨tri, htri, fill_mem.mpr ⟨v1, v2, v3, hc, hj, box_covers hm hs hpass, ?_⟩⟩
  refine hitBy_of_closest hm hpass ?_
  have hq : (fun a => ((![(j.1 : ℤ), (j.2.1 : ℤ), (j.2.2 : ℤ)] : Fin 3 → ℤ) a + 1 / 2 : K) * m.s + t a) = m.centreOf (toZ j) := by
    funext a
    exact (centreOf_unrotated hm (toZ j) a).symm
  rw [hq] at hcase
  rcases hcase with hon | hch
  · exact C43_closest_point_partial hproper hon
  · refine closestBy_isClosest _ hproper _ fun hin c hcand => ?_
    have := hch c hcand
    simp only [closestOnTriangle, closestOnTriangleBy, hin, Bool.false_eq_true, if_false] at this
    exact this

/-- With the right comparison, in maps without rotation, every cell that a triangle passes through is filled. -/
theorem C43_repaired_fills_every_cell {m : RastMap K} {t : Vec K} (hm : m.Unrotated t) (hs : 0 < m.s)
    (hinit : m.initialized = true)
    {enforce : Bool} {vertices : List (Vec K)} {triangles : List (ℤ × ℤ × ℤ)} {occ occ' : Idx → Fl}
    (h : m.MeshRuns nearKey enforce vertices triangles occ false occ') {tri : ℤ × ℤ × ℤ} (htri : tri ∈ triangles)
    {v1 v2 v3 : Vec K} (hc : corners vertices tri = some (v1, v2, v3)) (hproper : ProperTriangle v1 v2 v3) {j : Idx}
    (hj : m.dims.In j) (hpass : PassesThrough m.s t v1 v2 v3 ![(j.1 : ℤ), (j.2.1 : ℤ), (j.2.2 : ℤ)]) :
    occ' j = .fin 1 :=
  (meshRuns_spec hinit h).2.1 rfl j ⟨tri, htri, fill_mem.mpr ⟨v1, v2, v3, hc, hj, box_covers hm hs hpass,
    hitBy_of_closest hm hpass (C43_repaired_closest_point hproper _)⟩⟩

/-- Full statement: with enforcement, a triangle that passes through a cell outside the map makes the call throw.  Proved
for maps without rotation and outside cells whose centre projects onto the triangle.  Missing: other cells, where it fails
(`C42_outside_not_noticed`). -/
theorem C42_outside_throws_partial {m : RastMap K} {t : Vec K} (hm : m.Unrotated t) (hs : 0 < m.s)
    (hinit : m.initialized = true)
    {vertices : List (Vec K)} {triangles : List (ℤ × ℤ × ℤ)} {occ occ' : Idx → Fl} {threw : Bool}
    (h : m.MeshRuns codeKey true vertices triangles occ threw occ') {tri : ℤ × ℤ × ℤ} (htri : tri ∈ triangles)
    {v1 v2 v3 : Vec K} (hc : corners vertices tri = some (v1, v2, v3)) (hproper : ProperTriangle v1 v2 v3) {i : ZIdx}
    (hout : ¬ ∃ j, m.dims.In j ∧ i = toZ j) (hpass : PassesThrough m.s t v1 v2 v3 ![i.1, i.2.1, i.2.2])
    (hon : ProjectsOnto v1 v2 v3 (fun a => ((![i.1, i.2.1, i.2.2] : Fin 3 → ℤ) a + 1 / 2 : K) * m.s + t a)) :
    threw = true := by
  rw [(meshRuns_spec hinit h).1]
  refine ⟨tri, htri, throw_mem.mpr (Or.inr ⟨rfl, v1, v2, v3, hc, i, box_covers hm hs hpass, ?_, ?_⟩)⟩
  · refine hitBy_of_closest hm hpass ?_
    have hq : (fun a => ((![i.1, i.2.1, i.2.2] : Fin 3 → ℤ) a + 1 / 2 : K) * m.s + t a) = m.centreOf i := by
      funext a
      exact (centreOf_unrotated hm i a).symm
    rw [hq] at hon
    exact C43_closest_point_partial hproper hon
  · rw [Bool.eq_false_iff, Ne, checkInBounds_iff]
    exact hout

end

/-! ### Concrete cases -/

/-- A map of 8 by 1 by 1 unit cells at the origin. -/
def rowMap (n : ℕ) : RastMap ℚ :=
  { initialized := true, dims := ⟨n, 1, 1⟩, s := 1, pose := ⟨fun i j => if i = j then 1 else 0, fun _ => 0⟩ }

/-- A long triangle along the row, tip at x = 5.9. -/
def longTriangle : List (Vec ℚ) := [![1/10, 1/10, 1/2], ![1/10, 3/10, 1/2], ![59/10, 1/10, 1/2]]

theorem rowMap_unrotated (n : ℕ) : (rowMap n).Unrotated (fun _ => 0) := ⟨fun _ _ => rfl, fun _ => rfl⟩

theorem longTriangle_proper : ProperTriangle (![1/10, 1/10, 1/2] : Vec ℚ) ![1/10, 3/10, 1/2] ![59/10, 1/10, 1/2] := by
  intro x y h
  have h0 := h 0
  have h1 := h 1
  simp at h0 h1
  refine ⟨?_, ?_⟩
  · rcases h1 with h1 | h1
    · exact h1
    · norm_num at h1
  · rcases h0 with h0 | h0
    · exact h0
    · norm_num at h0

/-- The triangle passes through all six cells of the row up to its tip. -/
theorem longTriangle_passes (x : Fin 6) :
    PassesThrough (1 : ℚ) (fun _ => 0) ![1/10, 1/10, 1/2] ![1/10, 3/10, 1/2] ![59/10, 1/10, 1/2] ![(x : ℤ), 0, 0] := by
  -- the point at x + 1/2 on the edge from the first to the third vertex (5/10 is 4/58 of the way, and so on)
  refine ⟨![(x : ℚ) + 1/2, 1/10, 1/2], ⟨1 - ((x : ℚ) + 4/10) / (58/10), 0, ((x : ℚ) + 4/10) / (58/10), ?_, le_rfl, ?_, ?_, ?_⟩, ?_⟩
  · fin_cases x <;> norm_num
  · fin_cases x <;> norm_num
  · ring
  · intro a
    fin_cases a <;> simp <;> ring
  · intro a
    fin_cases a <;> simp <;> norm_num

/-- The point that `CalcClosestPointOnTriangle` returns is not the closest: for the centre of the sixth cell it is over five
cells away, although a vertex of the triangle is less than one away. -/
theorem C43_not_the_closest :
    let v1 : Vec ℚ := ![1/10, 1/10, 1/2]
    let v2 : Vec ℚ := ![1/10, 3/10, 1/2]
    let v3 : Vec ℚ := ![59/10, 1/10, 1/2]
    let q : Vec ℚ := ![11/2, 1/2, 1/2]
    5 ^ 2 < sqDistance (closestOnTriangle v1 v2 v3 (cross3 (vsub v2 v1) (vsub v3 v1)) q) q ∧
      OnTriangle v1 v2 v3 v3 ∧ sqDistance v3 q < 1 := by
  refine ⟨by decide +kernel, ⟨0, 0, 1, le_rfl, le_rfl, zero_le_one, by norm_num, fun a => by simp⟩, by decide +kernel⟩

/-- Five of the six cells that the triangle passes through stay empty, although every cell is in the map. -/
theorem C43_misses_cells :
    (∀ x : Fin 6, PassesThrough (rowMap 8).s (fun _ => 0) ![1/10, 1/10, 1/2] ![1/10, 3/10, 1/2] ![59/10, 1/10, 1/2]
      ![(x : ℤ), 0, 0]) ∧
    ((rowMap 8).rasterizeTriangle codeKey true longTriangle [(0, 1, 2)] 0 (fun _ => .fin 0)).1 = false ∧
    ∀ x : Fin 5, ((rowMap 8).rasterizeTriangle codeKey true longTriangle [(0, 1, 2)] 0 (fun _ => .fin 0)).2
      ((x : ℕ) + 1, 0, 0) = .fin 0 :=
  ⟨longTriangle_passes, by decide +kernel, by decide +kernel⟩

/-- With enforcement, a triangle with a vertex almost four cells outside the map is accepted. -/
theorem C42_outside_not_noticed :
    (∃ v ∈ longTriangle, ¬ InGridBox ![(rowMap 2).dims.nx, (rowMap 2).dims.ny, (rowMap 2).dims.nz] (rowMap 2).s
      fun a => v a - 0) ∧
    ((rowMap 2).rasterizeTriangle codeKey true longTriangle [(0, 1, 2)] 0 (fun _ => .fin 0)).1 = false := by
  refine ⟨⟨![59/10, 1/10, 1/2], by simp [longTriangle], fun h => ?_⟩, by decide +kernel⟩
  have := (h 0).2
  simp [rowMap] at this
  norm_num at this

/-- A map of 4 by 4 cells, turned by a quarter about the z axis: its x axis is the world's y axis. -/
def turnedMap : RastMap ℚ :=
  { initialized := true, dims := ⟨4, 4, 1⟩, s := 1,
    pose := ⟨![![0, -1, 0], ![1, 0, 0], ![0, 0, 1]], fun _ => 0⟩ }

def turnedTriangle : List (Vec ℚ) := [![-7/2, 1/2, 1/2], ![-1/2, 1/2, 1/2], ![-1/2, 7/2, 1/2]]

/-- The box of cells to visit is computed from the corners of the box in the world frame.  In a turned map it can be empty:
here the vertices are the centres of three cells of the map, and nothing at all is filled; the repaired comparison does not
help. -/
theorem C43_rotated_map_stays_empty :
    turnedMap.pose.Valid ∧
    turnedTriangle = [turnedMap.centreOf (0, 3, 0), turnedMap.centreOf (0, 0, 0), turnedMap.centreOf (3, 0, 0)] ∧
    (∀ x y : Fin 4, (turnedMap.rasterizeTriangle codeKey true turnedTriangle [(0, 1, 2)] 0 (fun _ => .fin 0)).2 (x, y, 0) = .fin 0) ∧
    (∀ x y : Fin 4, (turnedMap.rasterizeTriangle nearKey true turnedTriangle [(0, 1, 2)] 0 (fun _ => .fin 0)).2 (x, y, 0) = .fin 0) ∧
    (turnedMap.rasterizeTriangle codeKey true turnedTriangle [(0, 1, 2)] 0 (fun _ => .fin 0)).1 = false := by
  refine ⟨?_, ?_, by decide +kernel, by decide +kernel, by decide +kernel⟩
  · unfold Pose.Valid; decide +kernel
  · decide +kernel

/-! Cases meeting the hypotheses of the theorems above. -/

/-- A run of the mesh on the row map: no exception. -/
example : ∃ occ', (rowMap 8).MeshRuns codeKey true longTriangle [(0, 1, 2)] (fun _ => .fin 0) false occ' := by
  obtain ⟨threw, occ', h⟩ := C42_has_outcome (rowMap 8) true longTriangle [(0, 1, 2)] (fun _ => .fin 0)
  have : threw = false := C42_contained_never_throws (rowMap_unrotated 8) (by norm_num [rowMap]) rfl
    (by intro t ht; simp at ht; subst ht; intro k hk; rcases hk with rfl | rfl | rfl <;> decide)
    (by
      intro v hv a
      simp [longTriangle] at hv
      rcases hv with rfl | rfl | rfl <;> fin_cases a <;> simp [rowMap] <;> norm_num) h
  exact ⟨occ', this ▸ h⟩

/-- The centre of the first cell projects onto a big triangle through it, so `C43_partial` applies. -/
example : ProjectsOnto (![0, 0, 1/2] : Vec ℚ) ![4, 0, 1/2] ![0, 4, 1/2] ![1/2, 1/2, 1/2] ∧
    PassesThrough (1 : ℚ) (fun _ => 0) ![0, 0, 1/2] ![4, 0, 1/2] ![0, 4, 1/2] ![0, 0, 0] := by
  have h : OnTriangle (![0, 0, 1/2] : Vec ℚ) ![4, 0, 1/2] ![0, 4, 1/2] ![1/2, 1/2, 1/2] :=
    ⟨3/4, 1/8, 1/8, by norm_num, by norm_num, by norm_num, by norm_num, fun a => by fin_cases a <;> norm_num⟩
  refine ⟨⟨_, h, by norm_num, by norm_num⟩, ⟨_, h, fun a => ?_⟩⟩
  fin_cases a <;> norm_num

/-- The choice is the nearest one for a cell at the corner of a triangle that is nearest to the origin. -/
example : ChoiceIsNearest (![3/5, 3/5, 1/2] : Vec ℚ) ![3, 3/5, 1/2] ![3/5, 3, 1/2] ![1/2, 1/2, 1/2] ∧
    projectsInside (![3/5, 3/5, 1/2] : Vec ℚ) ![3, 3/5, 1/2] ![3/5, 3, 1/2] ![1/2, 1/2, 1/2] = false := by
  refine ⟨?_, by decide +kernel⟩
  rintro c (rfl | rfl | rfl) <;> decide +kernel

end VGT
