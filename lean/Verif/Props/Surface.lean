import Verif.Lemmas.Surface

/-!
C28 (component surfaces), C29 (surface cells), C30 (candidate corners), C31 (conversions).
-/
set_option autoImplicit false

namespace VGT
open VGT.EDT VGT.Spec

section
variable {C : Type}

/-! ### C29 -/

/-- C29: `IsSurfaceIndex` never throws, is empty exactly outside the grid, and otherwise is true exactly if one of the
in-grid cells among the 26 neighbours is in another class (a NaN neighbour counts only for an unknown cell, a NaN cell is
never a surface cell). -/
theorem C29_surface_decides (occ : C → Fl) (d : Dims) (data : Idx → C) :
    (∀ i, (∃ r, isSurfaceIndex occ d data i = some r ∧ (r = none ↔ ¬ ∃ j, d.In j ∧ i = toZ j))) ∧
    ∀ i, d.In i → ∃ b, isSurfaceIndex occ d data (toZ i) = some (some b) ∧
      (b = true ↔ ∃ j, d.In j ∧ Near26 i j ∧
        classOf (occ (data i)) ≠ classOf (occ (data j)) ∧ classOf (occ (data i)) ≠ .undefined ∧
        (classOf (occ (data j)) = .undefined → classOf (occ (data i)) = .unknown)) := by
  constructor
  · intro i
    by_cases h : ∃ j, d.In j ∧ i = toZ j
    · obtain ⟨j, hj, rfl⟩ := h
      obtain ⟨b, hb, -⟩ := isSurfaceIndex_toZ occ data hj
      exact ⟨some b, hb, by simp only [reduceCtorEq, false_iff, not_not]; exact ⟨j, hj, rfl⟩⟩
    · refine ⟨none, ?_, by simpa using h⟩
      rw [isSurfaceIndex, if_neg (fun hc => h (checkInBounds_iff.1 hc))]
  · intro i hi
    obtain ⟨b, hb, hiff⟩ := isSurfaceIndex_toZ occ data hi
    refine ⟨b, hb, hiff.trans (exists_congr fun j => and_congr_right fun _ => and_congr_right fun _ => ?_)⟩
    rw [transition_iff]
    cases classOf (occ (data i)) <;> cases classOf (occ (data j)) <;> simp

/-- C29: the difference of class is symmetric, so in a map without NaN the neighbour that makes a cell a surface cell is
one itself. -/
theorem C29_surface_symmetric (occ : C → Fl) (d : Dims) (data : Idx → C) (hn : ∀ i, d.In i → occ (data i) ≠ .nan)
    (i : Idx) (hi : d.In i) (h : isSurfaceIndex occ d data (toZ i) = some (some true)) :
    ∃ j, d.In j ∧ Near26 i j ∧ classOf (occ (data i)) ≠ classOf (occ (data j)) ∧
      isSurfaceIndex occ d data (toZ j) = some (some true) := by
  have hu : ∀ i, d.In i → classOf (occ (data i)) ≠ .undefined := by
    intro i hi hc
    have := hn i hi
    cases ho : occ (data i) with
    | nan => exact this ho
    | ninf => rw [ho] at hc; simp [classOf] at hc
    | pinf => rw [ho] at hc; simp [classOf] at hc
    | fin q =>
      rw [ho] at hc
      simp only [classOf] at hc
      split_ifs at hc
  obtain ⟨b, hb, hiff⟩ := (C29_surface_decides occ d data).2 i hi
  rw [hb] at h
  cases h
  obtain ⟨j, hj, hnear, hne, -, -⟩ := hiff.1 rfl
  refine ⟨j, hj, hnear, hne, ?_⟩
  obtain ⟨b', hb', hiff'⟩ := (C29_surface_decides occ d data).2 j hj
  rw [hb', hiff'.2 ⟨i, hi, ⟨fun e => hnear.1 e.symm, ?_⟩, fun e => hne e.symm, hu j hj, fun e => absurd e (hu i hi)⟩]
  have := hnear.2
  omega

/-- A row of three cells: empty, empty, filled. -/
def exRow : Idx → OccCell := fun i => { occ := .fin (if i.1 = 2 then 1 else 0) }

example : isSurfaceIndex OccCell.occ ⟨3, 1, 1⟩ exRow (0, 0, 0) = some (some false) ∧
    isSurfaceIndex OccCell.occ ⟨3, 1, 1⟩ exRow (1, 0, 0) = some (some true) ∧
    isSurfaceIndex OccCell.occ ⟨3, 1, 1⟩ exRow (2, 0, 0) = some (some true) ∧
    isSurfaceIndex OccCell.occ ⟨3, 1, 1⟩ exRow (3, 0, 0) = some none ∧
    isSurfaceIndex OccCell.occ ⟨3, 1, 1⟩ exRow (0, -1, 0) = some none := by decide +kernel

/-- The hypotheses of `C29_surface_symmetric` are met by `exRow`. -/
example : (∀ i, (⟨3, 1, 1⟩ : Dims).In i → (exRow i).occ ≠ .nan) ∧
    isSurfaceIndex OccCell.occ ⟨3, 1, 1⟩ exRow (toZ (1, 0, 0)) = some (some true) := by
  constructor
  · intro i _ h
    simp [exRow] at h
  · decide +kernel

/-! ### C30 -/

/-- C30: `CheckIfCandidateCorner` is empty exactly outside the grid and otherwise true exactly if two different in-grid
face neighbours have another component. -/
theorem C30_corner_decides (comp : C → ℕ) (d : Dims) (data : Idx → C) :
    (∀ i, candidateCorner comp d data i = none ↔ ¬ ∃ j, d.In j ∧ i = toZ j) ∧
    ∀ i, d.In i → ∃ b, candidateCorner comp d data (toZ i) = some b ∧
      (b = true ↔ ∃ j k, j ≠ k ∧ (d.In j ∧ FaceAdj i j ∧ comp (data j) ≠ comp (data i)) ∧
        (d.In k ∧ FaceAdj i k ∧ comp (data k) ≠ comp (data i))) := by
  have htwo : ∀ (i : Idx), d.In i →
      (2 ≤ ((sixNeighbors (toZ i)).map fun j => countIfDifferent comp d data (comp (data i)) j 0).sum ↔
        ∃ j k, j ≠ k ∧ (d.In j ∧ FaceAdj i j ∧ comp (data j) ≠ comp (data i)) ∧
        (d.In k ∧ FaceAdj i k ∧ comp (data k) ≠ comp (data i))) := by
    intro i _
    have hnd : (sixNeighbors (toZ i)).Nodup := by
      simp only [sixNeighbors, List.nodup_cons, List.mem_cons, Prod.mk.injEq, List.not_mem_nil, or_false, not_or,
        List.nodup_nil, and_true, not_and, not_false_eq_true]
      omega
    have hmem : ∀ j, j ∈ sixNeighbors (toZ i) → ∀ k, j = toZ k → FaceAdj i k := by
      rintro j hj k rfl
      exact six_mem hj
    have hmem' : ∀ k, FaceAdj i k → toZ k ∈ sixNeighbors (toZ i) := fun k => mem_six
    generalize sixNeighbors (toZ i) = l at hnd hmem hmem'
    constructor
    · -- two positive summands
      have : ∀ l : List ZIdx, l.Nodup → 1 ≤ (l.map fun j => countIfDifferent comp d data (comp (data i)) j 0).sum →
          ∃ j ∈ l, ∃ k, d.In k ∧ j = toZ k ∧ comp (data k) ≠ comp (data i) := by
        intro l
        induction l with
        | nil => intro _ h; simp at h
        | cons a t ih =>
          intro hnd h
          rw [List.map_cons, List.sum_cons] at h
          rcases countIfDifferent_le (d := d) comp data (comp (data i)) a with h0 | ⟨-, hk⟩
          · rw [h0] at h
            obtain ⟨j, hj, hr⟩ := ih (List.nodup_cons.1 hnd).2 (by omega)
            exact ⟨j, by simp [hj], hr⟩
          · exact ⟨a, by simp, hk⟩
      have two : ∀ l : List ZIdx, l.Nodup → 2 ≤ (l.map fun j => countIfDifferent comp d data (comp (data i)) j 0).sum →
          ∃ j ∈ l, ∃ j' ∈ l, j ≠ j' ∧ (∃ k, d.In k ∧ j = toZ k ∧ comp (data k) ≠ comp (data i)) ∧
            (∃ k, d.In k ∧ j' = toZ k ∧ comp (data k) ≠ comp (data i)) := by
        intro l
        induction l with
        | nil => intro _ h; simp at h
        | cons a t ih =>
          intro hnd h
          rw [List.map_cons, List.sum_cons] at h
          obtain ⟨hna, hnt⟩ := List.nodup_cons.1 hnd
          rcases countIfDifferent_le (d := d) comp data (comp (data i)) a with h0 | ⟨h1, hk⟩
          · rw [h0] at h
            obtain ⟨j, hj, j', hj', hr⟩ := ih hnt (by omega)
            exact ⟨j, by simp [hj], j', by simp [hj'], hr⟩
          · obtain ⟨j, hj, hr⟩ := this t hnt (by omega)
            exact ⟨a, by simp, j, by simp [hj], fun e => hna (e ▸ hj), hk, hr⟩
      intro h
      obtain ⟨j, hj, j', hj', hne, ⟨k, hk, rfl, hd⟩, ⟨k', hk', rfl, hd'⟩⟩ := two l hnd h
      exact ⟨k, k', fun e => hne (e ▸ rfl), ⟨hk, hmem _ hj _ rfl, hd⟩, ⟨hk', hmem _ hj' _ rfl, hd'⟩⟩
    · rintro ⟨j, k, hne, ⟨hj, haj, hdj⟩, ⟨hk, hak, hdk⟩⟩
      have h1 := hmem' j haj
      have h2 := hmem' k hak
      have hne' : toZ k ≠ toZ j := fun e => hne (toZ_inj.1 e).symm
      have hp := List.perm_cons_erase h1
      rw [(hp.map _).sum_eq, List.map_cons, List.sum_cons, countIfDifferent_pos _ _ _ hj hdj]
      have h3 : toZ k ∈ l.erase (toZ j) := (List.mem_erase_of_ne hne').2 h2
      have hp' := List.perm_cons_erase h3
      rw [(hp'.map _).sum_eq, List.map_cons, List.sum_cons, countIfDifferent_pos _ _ _ hk hdk]
      omega
  constructor
  · intro i
    rw [← getImm_none d data]
    unfold candidateCorner
    cases getImm d data i with
    | none => simp
    | some c =>
      simp only [reduceCtorEq, iff_false]
      split_ifs <;> simp
  · intro i hi
    refine ⟨_, candidateCorner_eq comp data hi, ?_⟩
    rw [decide_eq_true_eq]
    exact htwo i hi

/-- An L: the corner cell of the 2×2 square has label 1, the others 2. -/
def exCorner : Idx → OccCompCell := fun i => { occ := .fin 1, comp := if i.1 = 0 ∧ i.2.1 = 0 then 1 else 2 }

example : candidateCorner OccCompCell.comp ⟨2, 2, 1⟩ exCorner (0, 0, 0) = some true ∧
    candidateCorner OccCompCell.comp ⟨2, 2, 1⟩ exCorner (1, 0, 0) = some false ∧
    candidateCorner OccCompCell.comp ⟨2, 2, 1⟩ exCorner (2, 0, 0) = none := by decide +kernel

/-! ### C28 -/

/-- C28: `IsConnectedComponentSurfaceIndex` never throws, is empty exactly outside the grid, and otherwise is true
exactly if the cell has a face at the border of the grid or towards a cell with another label. -/
theorem C28_surface_index_decides (comp : C → ℕ) (d : Dims) (data : Idx → C) :
    (∀ i, (∃ r, isComponentSurfaceIndex comp d data i = some r ∧ (r = none ↔ ¬ ∃ j, d.In j ∧ i = toZ j))) ∧
    ∀ i, d.In i → ∃ b, isComponentSurfaceIndex comp d data (toZ i) = some (some b) ∧
      (b = true ↔ OnSurface d (fun j => comp (data j)) i) := by
  constructor
  · intro i
    by_cases h : ∃ j, d.In j ∧ i = toZ j
    · obtain ⟨j, hj, rfl⟩ := h
      obtain ⟨b, hb, -⟩ := isComponentSurfaceIndex_toZ comp data hj
      exact ⟨some b, hb, by simp only [reduceCtorEq, false_iff, not_not]; exact ⟨j, hj, rfl⟩⟩
    · refine ⟨none, ?_, by simpa using h⟩
      rw [isComponentSurfaceIndex, if_neg (fun hc => h (checkInBounds_iff.1 hc))]
  · exact fun i hi => isComponentSurfaceIndex_toZ comp data hi

/-- C28, what `ExtractComponentSurfaces` returns: never an exception; under each component exactly the in-grid cells
with that label whose class the mask asks for (NaN counts as unknown), surface or not; every cell once, keys increasing,
no empty entry. -/
theorem C28_extracts_every_cell_of_type (occ : C → Fl) (comp : C → ℕ) (d : Dims) (data : Idx → C)
    (hc : ∀ i, d.In i → comp (data i) < 2 ^ 32) (m : TypeMask) :
    ∃ s, extractSurfaces occ comp d data m = some s ∧ (s.Pairwise fun a b => a.1 < b.1) ∧
      (∀ p ∈ s, p.2.Nodup ∧ p.2 ≠ []) ∧
      ∀ k j, (∃ cells, (k, cells) ∈ s ∧ j ∈ cells) ↔
        ∃ i, d.In i ∧ j = toZ i ∧ comp (data i) = k ∧ Requested m (classOf (occ (data i))) := by
  obtain ⟨s, h1, h2, h3⟩ := extractSurfaces_spec (d := d) occ comp data hc m
  exact ⟨s, h1, h2.keys, fun p hp => ⟨h2.nodup p hp, h2.nonempty p hp⟩, h3⟩

/-- C28, the half that holds: every surface cell of a requested type is returned under its component.  The other half
(only surface cells are returned) is false, see `C28_interior_cell_extracted`. -/
theorem C28_contains_surface_partial (occ : C → Fl) (comp : C → ℕ) (d : Dims) (data : Idx → C)
    (hc : ∀ i, d.In i → comp (data i) < 2 ^ 32) (m : TypeMask) :
    ∃ s, extractSurfaces occ comp d data m = some s ∧
      ∀ i, d.In i → OnSurface d (fun j => comp (data j)) i → Requested m (classOf (occ (data i))) →
        ∃ cells, (comp (data i), cells) ∈ s ∧ toZ i ∈ cells := by
  obtain ⟨s, h1, -, h3⟩ := extractSurfaces_spec (d := d) occ comp data hc m
  exact ⟨s, h1, fun i hi _ hr => (h3 _ _).2 ⟨i, hi, rfl, rfl, hr⟩⟩

/-- A filled cube of one component. -/
def exCube : Idx → OccCompCell := fun _ => { occ := .fin 1, comp := 1 }

/-- C28 fails: the code tests whether the answer exists instead of the answer, so the centre of a solid 3×3×3 cube,
which `IsConnectedComponentSurfaceIndex` rejects, is returned as a surface cell. -/
theorem C28_interior_cell_extracted : ∃ (d : Dims) (data : Idx → OccCompCell) (s : Surfaces) (i : Idx),
    extractSurfaces OccCompCell.occ OccCompCell.comp d data { filled := true, empty := false, unknown := false } = some s ∧
    (∃ cells, ((data i).comp, cells) ∈ s ∧ toZ i ∈ cells) ∧
    isComponentSurfaceIndex OccCompCell.comp d data (toZ i) = some (some false) ∧
    ¬ OnSurface d (fun j => (data j).comp) i := by
  refine ⟨⟨3, 3, 3⟩, exCube, [(1, (allIdx ⟨3, 3, 3⟩).map toZ)], (1, 1, 1), ?_, ?_, ?_, ?_⟩
  · decide +kernel
  · exact ⟨_, List.mem_singleton.2 rfl, by decide +kernel⟩
  · decide +kernel
  · rintro (h | ⟨j, -, -, h⟩)
    · revert h; unfold OnBorder; decide
    · exact h rfl

/-- A cube with two labels: extraction separates them. -/
example : extractSurfaces OccCompCell.occ OccCompCell.comp ⟨2, 2, 1⟩ exCorner { filled := true, empty := false, unknown := false } =
    some [(1, [(0, 0, 0)]), (2, [(0, 1, 0), (1, 0, 0), (1, 1, 0)])] := by decide +kernel

end

/-! ### C31 -/

/-- C31: conversion of an initialized map succeeds and keeps geometry, frame and the number of cells; every cell, the
default and the out-of-bounds cell are converted one by one; a map that is not initialized stays so. -/
theorem C31_conversion_is_cellwise {G A B : Type} (size : G → ℕ) (conv : A → B) (m : Option (MapOf G A))
    (h : ∀ f, m = some f → f.cells.length = size f.geometry) :
    ∃ r, convertMap size conv m = some r ∧ (r = none ↔ m = none) ∧
      ∀ f t, m = some f → r = some t → t.geometry = f.geometry ∧ t.frame = f.frame ∧ t.default = conv f.default ∧
        t.oob = conv f.oob ∧ t.cells.length = f.cells.length ∧ ∀ n : ℕ, t.cells[n]? = (f.cells[n]?).map conv := by
  cases m with
  | none => exact ⟨none, rfl, by simp, by simp⟩
  | some f =>
    have := h f rfl
    refine ⟨some ⟨f.geometry, f.frame, conv f.default, conv f.oob, f.cells.map conv⟩, ?_, by simp, ?_⟩
    · simp [convertMap, this]
    · rintro f' t e e'
      cases e
      cases e'
      exact ⟨rfl, rfl, rfl, rfl, by simp, fun n => by simp⟩

/-- C31: to the component map and back gives the map itself, for both pairs of types. -/
theorem C31_there_and_back {G : Type} (size : G → ℕ) :
    (∀ m : Option (MapOf G OccCell), (∀ f, m = some f → f.cells.length = size f.geometry) →
      (convertMap size toOccComp m).bind (convertMap size fromOccComp) = some m) ∧
    (∀ m : Option (MapOf G TagCell), (∀ f, m = some f → f.cells.length = size f.geometry) →
      (convertMap size toTagComp m).bind (convertMap size fromTagComp) = some m) := by
  constructor
  · intro m h
    cases m with
    | none => rfl
    | some f =>
      have hs := h f rfl
      have hid : fromOccComp ∘ toOccComp = id := rfl
      simp [convertMap, hs, hid]
      rfl
  · intro m h
    cases m with
    | none => rfl
    | some f =>
      have hs := h f rfl
      have hid : fromTagComp ∘ toTagComp = id := rfl
      simp [convertMap, hs, hid]
      rfl

/-- C31: occupancies (bit patterns included, since the value is only copied) and object ids are kept and derived labels
start at 0. -/
theorem C31_cell_contents :
    (∀ c, (toOccComp c).occ = c.occ ∧ (toOccComp c).comp = 0) ∧ (∀ c, (fromOccComp c).occ = c.occ) ∧
    (∀ c, (toTagComp c).occ = c.occ ∧ (toTagComp c).obj = c.obj ∧ (toTagComp c).comp = 0 ∧ (toTagComp c).seg = 0) ∧
    (∀ c, (fromTagComp c).occ = c.occ ∧ (fromTagComp c).obj = c.obj) :=
  ⟨fun _ => ⟨rfl, rfl⟩, fun _ => rfl, fun _ => ⟨rfl, rfl, rfl, rfl⟩, fun _ => ⟨rfl, rfl⟩⟩

/-- C31: the other order: the component map loses its labels only. -/
theorem C31_back_and_there {G : Type} (size : G → ℕ) (f : MapOf G TagCompCell) (h : f.cells.length = size f.geometry) :
    ∃ t, (convertMap size fromTagComp (some f)).bind (convertMap size toTagComp) = some (some t) ∧
      t.geometry = f.geometry ∧ t.frame = f.frame ∧
      ∀ n : ℕ, (t.cells[n]?).map (fun c => (c.occ, c.obj)) = (f.cells[n]?).map (fun c => (c.occ, c.obj)) := by
  refine ⟨⟨f.geometry, f.frame, toTagComp (fromTagComp f.default), toTagComp (fromTagComp f.oob),
    (f.cells.map fromTagComp).map toTagComp⟩, ?_, rfl, rfl, ?_⟩
  · simp [convertMap, h]
  · intro n
    simp only [List.getElem?_map, Option.map_map]
    rfl

/-- A tagged map with two cells. -/
def exTagMap : MapOf ℕ TagCell :=
  { geometry := 2, frame := "world", default := ⟨.fin 0, 0⟩, oob := ⟨.fin (1 / 2), 0⟩, cells := [⟨.fin 1, 7⟩, ⟨.nan, 0⟩] }

example : exTagMap.cells.length = id exTagMap.geometry ∧
    convertMap id toTagComp (some exTagMap) = some (some
      { geometry := 2, frame := "world", default := ⟨.fin 0, 0, 0, 0⟩, oob := ⟨.fin (1 / 2), 0, 0, 0⟩,
        cells := [⟨.fin 1, 7, 0, 0⟩, ⟨.nan, 0, 0, 0⟩] }) ∧
    (convertMap id toTagComp (some exTagMap)).bind (convertMap id fromTagComp) = some (some exTagMap) := by decide +kernel

end VGT
