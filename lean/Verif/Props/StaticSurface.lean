import Verif.Model.StaticSurface
import Verif.Spec.StaticSurface
import Verif.Props.Surface

/-!
C55: surfaces as maps and as vectors.
-/
set_option autoImplicit false

namespace VGT
open VGT.Spec VGT.EDT

variable {V : Type}

theorem hashPut_keys (key : ZIdx) (value : V) (m : List (ZIdx × V)) (k : ZIdx) :
    k ∈ (hashPut key value m).map Prod.fst ↔ k = key ∨ k ∈ m.map Prod.fst := by
  induction m with
  | nil => simp [hashPut]
  | cons e m ih =>
    obtain ⟨k', v'⟩ := e
    unfold hashPut
    by_cases h : k' = key
    · subst h
      simp
    · rw [if_neg h]
      simp only [List.map_cons, List.mem_cons, ih]
      tauto

theorem hashPut_isMap (key : ZIdx) (value : V) {m : List (ZIdx × V)} (h : IsMap m) : IsMap (hashPut key value m) := by
  unfold IsMap at *
  induction m with
  | nil => simp [hashPut]
  | cons e m ih =>
    obtain ⟨k', v'⟩ := e
    unfold hashPut
    simp only [List.map_cons, List.nodup_cons] at h
    by_cases hk : k' = key
    · subst hk
      rw [if_pos rfl]
      simpa using h
    · rw [if_neg hk]
      simp only [List.map_cons, List.nodup_cons]
      refine ⟨?_, ih h.2⟩
      rw [hashPut_keys]
      rintro (h' | h')
      · exact hk h'
      · exact h.1 h'

theorem hashPut_maps (key : ZIdx) (value : V) {m : List (ZIdx × V)} (h : IsMap m) (k : ZIdx) (v : V) :
    Maps (hashPut key value m) k v ↔ (k = key ∧ v = value) ∨ (k ≠ key ∧ Maps m k v) := by
  unfold Maps IsMap at *
  induction m with
  | nil => simp [hashPut]
  | cons e m ih =>
    obtain ⟨k', v'⟩ := e
    unfold hashPut
    simp only [List.map_cons, List.nodup_cons] at h
    by_cases hk : k' = key
    · subst hk
      rw [if_pos rfl]
      simp only [List.mem_cons, Prod.mk.injEq]
      constructor
      · rintro (h' | h')
        · exact .inl h'
        · refine .inr ⟨?_, .inr h'⟩
          rintro rfl
          exact h.1 (List.mem_map.mpr ⟨_, h', rfl⟩)
      · rintro (h' | ⟨h1, h2 | h2⟩)
        · exact .inl h'
        · exact absurd h2.1 h1
        · exact .inr h2
    · rw [if_neg hk]
      simp only [List.mem_cons, Prod.mk.injEq, ih h.2]
      constructor
      · rintro (⟨rfl, rfl⟩ | h' | h')
        · exact .inr ⟨hk, .inl ⟨rfl, rfl⟩⟩
        · exact .inl h'
        · exact .inr ⟨h'.1, .inr h'.2⟩
      · rintro (h' | ⟨h1, h2 | h2⟩)
        · exact .inr (.inl h')
        · exact .inl h2
        · exact .inr (.inr ⟨h1, h2⟩)

theorem extractStatic_eq (order : List (ZIdx × ℕ) → List (ZIdx × ℕ)) (raw : List (ZIdx × ℕ)) :
    extractStaticSurface order raw = ((order raw).filter fun e => decide (e.2 = 1)).map Prod.fst := by
  unfold extractStaticSurface
  suffices ∀ (l : List (ZIdx × ℕ)) (acc : List ZIdx),
      l.foldl (fun acc e => if e.2 = 1 then acc ++ [e.1] else acc) acc =
        acc ++ (l.filter fun e => decide (e.2 = 1)).map Prod.fst by simpa using this (order raw) []
  intro l
  induction l with
  | nil => simp
  | cons e l ih =>
    intro acc
    rw [List.foldl_cons, ih]
    by_cases h : e.2 = 1 <;> simp [h]

/-- C55, map to vector: `ExtractStaticSurface` returns every cell that the map sends to 1, each once, and nothing else, for
every order of iteration. -/
theorem C55_static_surface (order : List (ZIdx × ℕ) → List (ZIdx × ℕ)) (horder : ∀ l, (order l).Perm l)
    (raw : List (ZIdx × ℕ)) (hraw : IsMap raw) :
    (extractStaticSurface order raw).Nodup ∧ ∀ i, i ∈ extractStaticSurface order raw ↔ Maps raw i 1 := by
  rw [extractStatic_eq]
  have hn : ((order raw).map Prod.fst).Nodup := ((horder raw).map _).nodup_iff.mpr hraw
  refine ⟨(List.filter_sublist.map _).nodup hn, ?_⟩
  intro i
  unfold Maps
  rw [← (horder raw).mem_iff]
  simp

theorem dynamic_spec (static : List ZIdx) :
    ∀ acc : List (ZIdx × ℕ), IsMap acc → IsMap (static.foldl (fun acc i => hashPut i 1 acc) acc) ∧
      ∀ i v, Maps (static.foldl (fun acc i => hashPut i 1 acc) acc) i v ↔
        (i ∈ static ∧ v = 1) ∨ (i ∉ static ∧ Maps acc i v) := by
  induction static with
  | nil => intro acc h; simp [h]
  | cons j l ih =>
    intro acc h
    obtain ⟨h1, h2⟩ := ih _ (hashPut_isMap j 1 h)
    refine ⟨h1, ?_⟩
    intro i v
    rw [List.foldl_cons, h2, hashPut_maps j 1 h]
    simp only [List.mem_cons]
    tauto

/-- C55, vector to map: `ConvertToDynamicSurface` returns the map that sends exactly the cells of the vector to 1. -/
theorem C55_dynamic_surface (static : List ZIdx) :
    IsMap (convertToDynamicSurface static) ∧
      ∀ i v, Maps (convertToDynamicSurface static) i v ↔ i ∈ static ∧ v = 1 := by
  obtain ⟨h1, h2⟩ := dynamic_spec static [] (by simp [IsMap])
  exact ⟨h1, fun i v => by rw [convertToDynamicSurface, h2]; simp [Maps]⟩

/-- C55, there and back: the map made from the vector of a map has the entries of the map with value 1; for surfaces as
the library extracts them (all values 1) it is the same map. -/
theorem C55_dynamic_of_static (order : List (ZIdx × ℕ) → List (ZIdx × ℕ)) (horder : ∀ l, (order l).Perm l)
    (raw : List (ZIdx × ℕ)) (hraw : IsMap raw) :
    (∀ i v, Maps (convertToDynamicSurface (extractStaticSurface order raw)) i v ↔ Maps raw i v ∧ v = 1) ∧
      ((∀ e ∈ raw, e.2 = 1) → (convertToDynamicSurface (extractStaticSurface order raw)).Perm raw) := by
  have h1 : ∀ i v, Maps (convertToDynamicSurface (extractStaticSurface order raw)) i v ↔ Maps raw i v ∧ v = 1 := by
    intro i v
    rw [(C55_dynamic_surface _).2, (C55_static_surface order horder raw hraw).2]
    constructor
    · rintro ⟨h, rfl⟩; exact ⟨h, rfl⟩
    · rintro ⟨h, rfl⟩; exact ⟨h, rfl⟩
  refine ⟨h1, ?_⟩
  intro hall
  refine (List.perm_ext_iff_of_nodup (C55_dynamic_surface _).1.of_map hraw.of_map).mpr ?_
  rintro ⟨i, v⟩
  constructor
  · intro h; exact ((h1 i v).mp h).1
  · intro h; exact (h1 i v).mpr ⟨h, hall _ h⟩

/-- C55, back and there: the vector of the map of a vector without repetition has the same cells (the order is that of
the hash map). -/
theorem C55_static_of_dynamic (order : List (ZIdx × ℕ) → List (ZIdx × ℕ)) (horder : ∀ l, (order l).Perm l)
    (static : List ZIdx) (hs : static.Nodup) :
    (extractStaticSurface order (convertToDynamicSurface static)).Perm static := by
  obtain ⟨h1, h2⟩ := C55_static_surface order horder _ (C55_dynamic_surface static).1
  refine (List.perm_ext_iff_of_nodup h1 hs).mpr ?_
  intro i
  rw [h2, (C55_dynamic_surface static).2]
  simp

theorem surfaceIndexLoop_spec (static : List ZIdx) :
    ∀ (idx : ℕ) (acc : List (ZIdx × ℕ)), IsMap acc → IsMap (surfaceIndexLoop static idx acc) ∧
      ∀ i n, Maps (surfaceIndexLoop static idx acc) i n ↔
        (∃ p, static[p]? = some i ∧ (∀ q, p < q → static[q]? ≠ some i) ∧ n = idx + p) ∨ (i ∉ static ∧ Maps acc i n) := by
  induction static with
  | nil => intro idx acc h; simp [surfaceIndexLoop, h]
  | cons j l ih =>
    intro idx acc h
    obtain ⟨h1, h2⟩ := ih (idx + 1) _ (hashPut_isMap j idx h)
    refine ⟨h1, ?_⟩
    intro i n
    rw [surfaceIndexLoop, h2, hashPut_maps j idx h]
    constructor
    · rintro (⟨p, hp, hq, rfl⟩ | ⟨hi, ⟨rfl, rfl⟩ | ⟨hne, hm⟩⟩)
      · refine .inl ⟨p + 1, by simpa using hp, ?_, by omega⟩
        intro q hq'
        obtain ⟨q, rfl⟩ : ∃ q', q = q' + 1 := ⟨q - 1, by omega⟩
        simpa using hq q (by omega)
      · refine .inl ⟨0, by simp, ?_, by simp⟩
        intro q hq'
        obtain ⟨q, rfl⟩ : ∃ q', q = q' + 1 := ⟨q - 1, by omega⟩
        intro h'
        exact hi (List.mem_of_getElem? (by simpa using h'))
      · refine .inr ⟨?_, hm⟩
        simp only [List.mem_cons]
        rintro (h' | h')
        · exact hne h'
        · exact hi h'
    · rintro (⟨p, hp, hq, rfl⟩ | ⟨hi, hm⟩)
      · rcases p with _ | p
        · simp only [List.getElem?_cons_zero, Option.some.injEq] at hp
          subst hp
          refine .inr ⟨?_, .inl ⟨rfl, by simp⟩⟩
          intro h'
          obtain ⟨q, hq'⟩ := List.getElem?_of_mem h'
          exact hq (q + 1) (by omega) (by simpa using hq')
        · refine .inl ⟨p, by simpa using hp, ?_, by omega⟩
          intro q hq'
          simpa using hq (q + 1) (by omega)
      · simp only [List.mem_cons, not_or] at hi
        exact .inr ⟨hi.2, .inr ⟨hi.1, hm⟩⟩

/-- C55, positions: `BuildSurfaceIndexMap` sends every cell of the vector, and no other, to its last position; for vectors
without repetition, as `ExtractStaticSurface` returns them, that is the position of the cell. -/
theorem C55_surface_index_map (static : List ZIdx) :
    IsMap (buildSurfaceIndexMap static) ∧
      (∀ i n, Maps (buildSurfaceIndexMap static) i n ↔ static[n]? = some i ∧ ∀ q, n < q → static[q]? ≠ some i) ∧
      (static.Nodup → ∀ i n, Maps (buildSurfaceIndexMap static) i n ↔ static[n]? = some i) := by
  obtain ⟨h1, h2⟩ := surfaceIndexLoop_spec static 0 [] (by simp [IsMap])
  have h3 : ∀ i n, Maps (buildSurfaceIndexMap static) i n ↔ static[n]? = some i ∧ ∀ q, n < q → static[q]? ≠ some i := by
    intro i n
    rw [buildSurfaceIndexMap, h2]
    constructor
    · rintro (⟨p, hp, hq, rfl⟩ | ⟨-, h⟩)
      · rw [Nat.zero_add]; exact ⟨hp, hq⟩
      · simp [Maps] at h
    · rintro ⟨hp, hq⟩
      exact .inl ⟨n, hp, hq, by simp⟩
  refine ⟨h1, h3, ?_⟩
  intro hn i n
  rw [h3]
  constructor
  · exact fun h => h.1
  · intro h
    refine ⟨h, ?_⟩
    intro q hq h'
    obtain ⟨hlt, he⟩ := List.getElem?_eq_some_iff.mp h
    obtain ⟨hlt', he'⟩ := List.getElem?_eq_some_iff.mp h'
    have := (List.nodup_iff_injective_getElem.mp hn) (a₁ := ⟨n, hlt⟩) (a₂ := ⟨q, hlt'⟩) (by simp [he, he'])
    simp at this
    omega

/-- A surface of three entries, one of them switched off. -/
def exSurface : List (ZIdx × ℕ) := [((0, 0, 0), 1), ((1, 0, 0), 0), ((2, 0, 0), 1)]

example : IsMap exSurface ∧ extractStaticSurface List.reverse exSurface = [(2, 0, 0), (0, 0, 0)] ∧
    convertToDynamicSurface (extractStaticSurface List.reverse exSurface) = [((2, 0, 0), 1), ((0, 0, 0), 1)] ∧
    buildSurfaceIndexMap (extractStaticSurface List.reverse exSurface) = [((2, 0, 0), 0), ((0, 0, 0), 1)] := by
  refine ⟨?_, ?_, ?_, ?_⟩
  · unfold IsMap; decide +kernel
  all_goals decide +kernel

/-- The rest of the library counts any value but 0 as part of the surface (topology_computation.hpp:377-380,
ros_interface.hpp:187); here only the value 1 does.  An entry with value 2 is dropped. -/
theorem C55_other_values_dropped (order : List (ZIdx × ℕ) → List (ZIdx × ℕ)) (horder : ∀ l, (order l).Perm l) (i : ZIdx)
    (v : ℕ) (hv : v ≠ 1) : extractStaticSurface order [(i, v)] = [] := by
  rw [extractStatic_eq]
  have : order [(i, v)] = [(i, v)] := List.perm_singleton.mp (horder _)
  simp [this, hv]

/-- C55 with C28: the vector made from the extracted surface of a component has exactly its cells, each once, and the
position map inverts it. -/
theorem C55_component_surface {C : Type} (occ : C → Fl) (comp : C → ℕ) (d : Dims) (data : Idx → C)
    (hc : ∀ i, d.In i → comp (data i) < 2 ^ 32) (m : TypeMask) (order : List (ZIdx × ℕ) → List (ZIdx × ℕ))
    (horder : ∀ l, (order l).Perm l) :
    ∃ s, extractSurfaces occ comp d data m = some s ∧ ∀ k cells, (k, cells) ∈ s →
      let static := extractStaticSurface order (cells.map fun i => (i, 1))
      static.Perm cells ∧ ∀ i n, Maps (buildSurfaceIndexMap static) i n ↔ static[n]? = some i := by
  obtain ⟨s, h1, -, h3, -⟩ := C28_extracts_every_cell_of_type occ comp d data hc m
  refine ⟨s, h1, ?_⟩
  intro k cells hk
  have hmap : IsMap (cells.map fun i => (i, 1)) := by
    unfold IsMap
    rw [List.map_map]
    have : (Prod.fst ∘ fun i : ZIdx => (i, 1)) = id := rfl
    rw [this, List.map_id]
    exact (h3 _ hk).1
  obtain ⟨h4, h5⟩ := C55_static_surface order horder _ hmap
  refine ⟨?_, ?_⟩
  · refine (List.perm_ext_iff_of_nodup h4 (h3 _ hk).1).mpr ?_
    intro i
    rw [h5]
    simp [Maps]
  · exact (C55_surface_index_map _).2.2 h4

end VGT
