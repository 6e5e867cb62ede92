import Verif.Spec.Export
import Verif.Lemmas.Surface
import Verif.Lemmas.Serial
import Verif.Lemmas.IEEE
import Verif.Props.Surface
import Mathlib.Tactic.NormNum
import Mathlib.Tactic.Linarith

/-!
C44: display markers.
-/
set_option autoImplicit false

namespace VGT.Props
open VGT VGT.EDT VGT.Export VGT.Spec

variable {P C : Type}

theorem visible_iff (c : Color) : visible c = true ↔ Opaque c := by
  unfold visible Opaque
  cases c.a <;> simp [Fl.lt]

theorem noColor_not_visible : visible noColor = false := by decide +kernel

theorem allIdx_scan (d : Dims) : (allIdx d).Pairwise ScanBefore := by
  unfold allIdx
  rw [List.pairwise_flatMap]
  refine ⟨?_, ?_⟩
  · intro x _
    rw [List.pairwise_flatMap]
    refine ⟨?_, ?_⟩
    · intro y _
      rw [List.pairwise_map]
      refine List.pairwise_lt_range.imp ?_
      intro a b h
      exact .inr ⟨rfl, .inr ⟨rfl, h⟩⟩
    · refine List.pairwise_lt_range.imp ?_
      intro a b h i hi j hj
      simp only [List.mem_map] at hi hj
      obtain ⟨_, _, rfl⟩ := hi
      obtain ⟨_, _, rfl⟩ := hj
      exact .inr ⟨rfl, .inl h⟩
  · refine List.pairwise_lt_range.imp ?_
    intro a b h i hi j hj
    simp only [List.mem_flatMap, List.mem_map] at hi hj
    obtain ⟨_, _, _, _, rfl⟩ := hi
    obtain ⟨_, _, _, _, rfl⟩ := hj
    exact .inl h

theorem getImm_in {d : Dims} (data : Idx → C) {i : Idx} (hi : d.In i) : getImm d data (VGT.toZ i) = some (data i) := by
  unfold getImm VGT.toZ
  obtain ⟨h1, h2, h3⟩ := hi
  rw [if_pos]
  · simp
  · simp only; omega

theorem exportLoop_cells (d : Dims) (data : Idx → C) (loc : ZIdx → P) (color : C → ZIdx → Option Color) (f : Idx → Color)
    (cells : List Idx) (hin : ∀ i ∈ cells, d.In i) (hf : ∀ i ∈ cells, color (data i) (VGT.toZ i) = some (f i)) (m : Marker P) :
    exportLoop d data loc color (cells.map VGT.toZ) m =
      some ⟨m.points ++ (cells.filter fun i => visible (f i)).map (fun i => loc (VGT.toZ i)),
        m.colors ++ (cells.filter fun i => visible (f i)).map f⟩ := by
  induction cells generalizing m with
  | nil => simp [exportLoop]
  | cons i is ih =>
    have h1 := getImm_in data (hin i (by simp))
    have h2 := hf i (by simp)
    have ih' := ih (fun j hj => hin j (by simp [hj])) (fun j hj => hf j (by simp [hj]))
    simp only [List.map_cons, exportLoop, h1, h2]
    cases hv : visible (f i) with
    | true => simp [ih', hv]
    | false => simp [ih', hv]

/-- The grid export with any colour function that does not throw on cells of the grid. -/
theorem exportGrid_shows (d : Dims) (data : Idx → C) (loc : ZIdx → P) (color : C → ZIdx → Option Color) (f : Idx → Color)
    (hf : ∀ i, d.In i → color (data i) (VGT.toZ i) = some (f i)) :
    ∃ m, exportGrid d data loc color = some m ∧ ShowsExactly m loc (fun i => d.In i ∧ Opaque (f i)) f := by
  refine ⟨_, exportLoop_cells d data loc color f (allIdx d) (fun i hi => mem_allIdx.mp hi)
    (fun i hi => hf i (mem_allIdx.mp hi)) _, (allIdx d).filter (fun i => visible (f i)), ?_, ?_, ?_, ?_⟩
  · exact List.Pairwise.filter _ (allIdx_scan d)
  · intro i
    rw [List.mem_filter, mem_allIdx, visible_iff]
  · simp
  · simp

/-- C44: the grid export, for every grid, colour function and location function: it does not throw, shows exactly the cells
whose colour has positive alpha, in scan order, with one point and one colour for each. -/
theorem C44_grid_export (d : Dims) (data : Idx → C) (loc : ZIdx → P) (f : C → ZIdx → Color) :
    ∃ m, exportGrid d data loc (fun c i => some (f c i)) = some m ∧
      ShowsExactly m loc (fun i => d.In i ∧ Opaque (f (data i) (VGT.toZ i))) (fun i => f (data i) (VGT.toZ i)) ∧
      m.points.length = m.colors.length := by
  obtain ⟨m, hm, hs⟩ := exportGrid_shows d data loc (fun c i => some (f c i)) (fun i => f (data i) (VGT.toZ i)) (fun _ _ => rfl)
  refine ⟨m, hm, hs, ?_⟩
  obtain ⟨shown, -, -, h1, h2⟩ := hs
  rw [h1, h2]
  simp

theorem shows_length {m : Marker P} {loc : ZIdx → P} {cells : Idx → Prop} {color : Idx → Color}
    (h : ShowsExactly m loc cells color) : m.points.length = m.colors.length := by
  obtain ⟨shown, -, -, h1, h2⟩ := h
  rw [h1, h2]
  simp

theorem shows_congr {m : Marker P} {loc : ZIdx → P} {cells cells' : Idx → Prop} {color : Idx → Color}
    (h : ShowsExactly m loc cells color) (heq : ∀ i, cells i ↔ cells' i) : ShowsExactly m loc cells' color := by
  obtain ⟨shown, h0, h1, h2⟩ := h
  exact ⟨shown, h0, fun i => (h1 i).trans (heq i), h2⟩

theorem shows_congr_color {m : Marker P} {loc : ZIdx → P} {cells : Idx → Prop} {color color' : Idx → Color}
    (h : ShowsExactly m loc cells color) (heq : ∀ i, cells i → color i = color' i) : ShowsExactly m loc cells color' := by
  obtain ⟨shown, h0, h1, h2, h3⟩ := h
  refine ⟨shown, h0, h1, h2, ?_⟩
  rw [h3]
  exact List.map_congr_left fun i hi => heq i ((h1 i).mp hi)

/-- The colour for each class of occupancy; NaN is shown as unknown. -/
def paletteOf (p : Palette) (c : OccClass) : Color :=
  match c with
  | .filled => p.collision
  | .empty => p.free
  | .unknown => p.unknown
  | .undefined => p.unknown

theorem occColor_eq (occ : C → Fl) (p : Palette) (c : C) : occColor occ p c = paletteOf p (classOf (occ c)) := by
  unfold occColor
  by_cases h1 : Fl.lt .half (occ c) = true
  · rw [if_pos h1, (half_lt_iff _).mp h1]; rfl
  · rw [if_neg h1]
    by_cases h2 : Fl.lt (occ c) .half = true
    · rw [if_pos h2, (lt_half_iff _).mp h2]; rfl
    · rw [if_neg h2]
      rw [half_lt_iff] at h1
      rw [lt_half_iff] at h2
      cases hc : classOf (occ c) <;> simp_all [paletteOf]

/-- C44: `ExportForDisplay` with three colours. -/
theorem C44_display (occ : C → Fl) (d : Dims) (data : Idx → C) (loc : ZIdx → P) (p : Palette) :
    ∃ m, exportForDisplay occ d data loc p = some m ∧ m.points.length = m.colors.length ∧
      ShowsExactly m loc (fun i => d.In i ∧ Opaque (paletteOf p (classOf (occ (data i)))))
        (fun i => paletteOf p (classOf (occ (data i)))) := by
  obtain ⟨m, hm, hs, hl⟩ := C44_grid_export d data loc (fun c _ => occColor occ p c)
  refine ⟨m, hm, hl, ?_⟩
  simpa only [occColor_eq] using hs

/-- Three cells in a row: free, unknown, filled. -/
def exRow : Idx → OccCell := fun i => ⟨if i.1 = 0 then .fin 0 else if i.1 = 1 then .fin (1 / 2) else .fin 1⟩
/-- Red, green, and blue that is not shown. -/
def exPalette : Palette :=
  ⟨⟨.fin 1, .fin 0, .fin 0, .fin 1⟩, ⟨.fin 0, .fin 1, .fin 0, .fin (1 / 10)⟩, ⟨.fin 0, .fin 0, .fin 1, .fin 0⟩⟩

example : exportForDisplay OccCell.occ ⟨3, 1, 1⟩ exRow id exPalette =
    some ⟨[(0, 0, 0), (2, 0, 0)], [exPalette.free, exPalette.collision]⟩ := by decide +kernel

/-- C44: the three markers of `ExportForSeparateDisplay` show the filled, the free and the other cells. -/
theorem C44_separate_display (occ : C → Fl) (d : Dims) (data : Idx → C) (loc : ZIdx → P) (p : Palette) :
    ∃ filled free unknown, exportForSeparateDisplay occ d data loc p = some [filled, free, unknown] ∧
      ShowsExactly filled loc (fun i => d.In i ∧ classOf (occ (data i)) = .filled ∧ Opaque p.collision) (fun _ => p.collision) ∧
      ShowsExactly free loc (fun i => d.In i ∧ classOf (occ (data i)) = .empty ∧ Opaque p.free) (fun _ => p.free) ∧
      ShowsExactly unknown loc
        (fun i => d.In i ∧ (classOf (occ (data i)) = .unknown ∨ classOf (occ (data i)) = .undefined) ∧ Opaque p.unknown)
        (fun _ => p.unknown) := by
  have hno : ¬ Opaque noColor := by rw [← visible_iff, noColor_not_visible]; simp
  obtain ⟨m1, h1, -, s1⟩ := C44_display occ d data loc ⟨p.collision, noColor, noColor⟩
  obtain ⟨m2, h2, -, s2⟩ := C44_display occ d data loc ⟨noColor, p.free, noColor⟩
  obtain ⟨m3, h3, -, s3⟩ := C44_display occ d data loc ⟨noColor, noColor, p.unknown⟩
  refine ⟨m1, m2, m3, ?_, ?_, ?_, ?_⟩
  · simp [exportForSeparateDisplay, separatePalettes, h1, h2, h3]
  · refine shows_congr_color (shows_congr s1 ?_) ?_
    · intro i
      cases hc : classOf (occ (data i)) <;> simp [paletteOf, hno]
    · rintro i ⟨-, hc, -⟩
      simp [hc, paletteOf]
  · refine shows_congr_color (shows_congr s2 ?_) ?_
    · intro i
      cases hc : classOf (occ (data i)) <;> simp [paletteOf, hno]
    · rintro i ⟨-, hc, -⟩
      simp [hc, paletteOf]
  · refine shows_congr_color (shows_congr s3 ?_) ?_
    · intro i
      cases hc : classOf (occ (data i)) <;> simp [paletteOf, hno]
    · rintro i ⟨-, hc | hc, -⟩ <;> simp [hc, paletteOf]

example : exportForSeparateDisplay OccCell.occ ⟨3, 1, 1⟩ exRow id exPalette =
    some [⟨[(2, 0, 0)], [exPalette.collision]⟩, ⟨[(0, 0, 0)], [exPalette.free]⟩, ⟨[], []⟩] := by decide +kernel

/-! ### Index lists -/

/-- C44: `ExportIndicesForDisplay` throws if an index is outside the grid, otherwise shows exactly the given cells, in the
given order (all or none, as the colour is visible or not). -/
theorem C44_indices (d : Dims) (data : Idx → C) (loc : ZIdx → P) (color : Color) (indices : List ZIdx) :
    ((∃ i ∈ indices, ¬ ∃ j, d.In j ∧ i = VGT.toZ j) → exportIndices d data loc (fun _ _ => some color) indices = none) ∧
    ((∀ i ∈ indices, ∃ j, d.In j ∧ i = VGT.toZ j) →
      ∃ m, exportIndices d data loc (fun _ _ => some color) indices = some m ∧
        (Opaque color → m.points = indices.map loc ∧ m.colors = List.replicate indices.length color) ∧
        (¬ Opaque color → m.points = [] ∧ m.colors = [])) := by
  have hout : ∀ i : ZIdx, (¬ ∃ j, d.In j ∧ i = VGT.toZ j) → getImm d data i = none := by
    intro i h
    unfold getImm
    rw [if_neg]
    rintro ⟨h1, h2, h3, h4, h5, h6⟩
    apply h
    refine ⟨(i.1.toNat, i.2.1.toNat, i.2.2.toNat), ⟨by dsimp only; omega, by dsimp only; omega, by dsimp only; omega⟩, ?_⟩
    unfold VGT.toZ
    ext <;> simp <;> omega
  unfold exportIndices
  constructor
  · intro h
    generalize (⟨[], []⟩ : Marker P) = m0
    induction indices generalizing m0 with
    | nil => obtain ⟨i, hi, -⟩ := h; simp at hi
    | cons i is ih =>
      simp only [exportLoop]
      by_cases hi : ∃ j, d.In j ∧ i = VGT.toZ j
      · obtain ⟨j, hj, rfl⟩ := hi
        have : ∃ i ∈ is, ¬ ∃ j, d.In j ∧ i = VGT.toZ j := by
          obtain ⟨k, hk, hk'⟩ := h
          rcases List.mem_cons.mp hk with rfl | hk
          · exact absurd ⟨j, hj, rfl⟩ hk'
          · exact ⟨k, hk, hk'⟩
        rw [getImm_in data hj]
        dsimp only
        split_ifs <;> exact ih this _
      · rw [hout i hi]
  · intro h
    have : ∃ cells : List Idx, (∀ i ∈ cells, d.In i) ∧ indices = cells.map VGT.toZ := by
      induction indices with
      | nil => exact ⟨[], by simp, rfl⟩
      | cons i is ih =>
        obtain ⟨cells, h1, rfl⟩ := ih (fun i hi => h i (by simp [hi]))
        obtain ⟨j, hj, rfl⟩ := h i (by simp)
        refine ⟨j :: cells, ?_, rfl⟩
        intro k hk
        rcases List.mem_cons.mp hk with rfl | hk
        · exact hj
        · exact h1 k hk
    obtain ⟨cells, hin, rfl⟩ := this
    refine ⟨_, exportLoop_cells d data loc _ (fun _ => color) cells hin (fun _ _ => rfl) _, ?_, ?_⟩
    · intro ho
      rw [← visible_iff] at ho
      simp [ho, List.map_const']
    · intro ho
      rw [← visible_iff] at ho
      simp [ho]

/-- Likewise for `ExportIndexMapForDisplay`: the entries with a positive value. -/
theorem C44_index_map (d : Dims) (data : Idx → C) (loc : ZIdx → P) (color : Color) (indexMap : List (ZIdx × ℕ))
    (h : ∀ e ∈ indexMap, 0 < e.2 → ∃ j, d.In j ∧ e.1 = VGT.toZ j) (ho : Opaque color) :
    ∃ m, exportIndexMap d data loc (fun _ _ => some color) indexMap = some m ∧ m.points.length = m.colors.length ∧
      (∀ p, p ∈ m.points ↔ ∃ i n, (i, n) ∈ indexMap ∧ 0 < n ∧ loc i = p) ∧ ∀ c ∈ m.colors, c = color := by
  obtain ⟨m, hm, hs, -⟩ := (C44_indices d data loc color ((indexMap.filter fun (e : ZIdx × ℕ) => decide (0 < e.2)).map Prod.fst)).2 (by
    intro i hi
    simp only [List.mem_map, List.mem_filter, decide_eq_true_eq] at hi
    obtain ⟨e, ⟨he, hp⟩, rfl⟩ := hi
    exact h e he hp)
  obtain ⟨h1, h2⟩ := hs ho
  refine ⟨m, hm, by rw [h1, h2]; simp, ?_, ?_⟩
  · intro p
    rw [h1]
    simp only [List.mem_map, List.mem_filter, decide_eq_true_eq]
    constructor
    · rintro ⟨i, ⟨e, ⟨he, hp⟩, rfl⟩, rfl⟩
      exact ⟨e.1, e.2, he, hp, rfl⟩
    · rintro ⟨i, n, he, hp, rfl⟩
      exact ⟨i, ⟨(i, n), ⟨he, hp⟩, rfl⟩, rfl⟩
  · intro c hc
    rw [h2] at hc
    exact List.eq_of_mem_replicate hc

example : exportIndexMap ⟨3, 1, 1⟩ exRow id (fun _ _ => some exPalette.collision) [((2, 0, 0), 1), ((5, 5, 5), 0), ((0, 0, 0), 1)] =
    some ⟨[(2, 0, 0), (0, 0, 0)], [exPalette.collision, exPalette.collision]⟩ := by decide +kernel

/-- C44 for a list of indices: the cells in the order given, all in the surface colour; an index outside the grid is an
exception. -/
theorem C44_indices_display (d : Dims) (data : Idx → C) (loc : ZIdx → P) (color : Color) (indices : List ZIdx) :
    ((∃ i ∈ indices, ¬ ∃ j, d.In j ∧ i = VGT.toZ j) ↔ exportIndicesForDisplay d data loc indices color = none) ∧
    ∀ m, exportIndicesForDisplay d data loc indices color = some m → Opaque color →
      m.points = indices.map loc ∧ m.colors = List.replicate indices.length color := by
  obtain ⟨h1, h2⟩ := C44_indices d data loc color indices
  unfold exportIndicesForDisplay
  constructor
  · refine ⟨h1, fun h => ?_⟩
    by_contra hno
    obtain ⟨m, hm, -⟩ := h2 (by
      intro i hi
      by_contra hn
      exact hno ⟨i, hi, hn⟩)
    rw [h] at hm
    cases hm
  · intro m hm ho
    have hall : ∀ i ∈ indices, ∃ j, d.In j ∧ i = VGT.toZ j := by
      intro i hi
      by_contra hn
      rw [h1 ⟨i, hi, hn⟩] at hm
      cases hm
    obtain ⟨m', hm', hs, -⟩ := h2 hall
    rw [hm] at hm'
    cases hm'
    exact hs ho

/-- C44 for an index map: a shown cell is listed, whatever the order of iteration; entries with value 0 are not looked at. -/
theorem C44_index_map_display (d : Dims) (data : Idx → C) (loc : ZIdx → P) (color : Color) (indexMap : List (ZIdx × ℕ))
    (h : ∀ e ∈ indexMap, 0 < e.2 → ∃ j, d.In j ∧ e.1 = VGT.toZ j) (ho : Opaque color) :
    ∃ m, exportIndexMapForDisplay d data loc indexMap color = some m ∧ m.points.length = m.colors.length ∧
      (∀ p, p ∈ m.points ↔ ∃ i n, (i, n) ∈ indexMap ∧ 0 < n ∧ loc i = p) ∧ ∀ c ∈ m.colors, c = color :=
  C44_index_map d data loc color indexMap h ho

example : exportIndicesForDisplay ⟨3, 1, 1⟩ exRow id [(2, 0, 0), (1, 0, 0)] exPalette.free =
    some ⟨[(2, 0, 0), (1, 0, 0)], [exPalette.free, exPalette.free]⟩ ∧
    exportIndicesForDisplay ⟨3, 1, 1⟩ exRow id [(2, 0, 0), (3, 0, 0)] exPalette.free = none := by decide +kernel

/-! ### Spatially hashed maps -/

/-- The grid index of a cell of a chunk. -/
def inChunk (base : ZIdx) (i : Idx) : ZIdx := ((i.1 : ℤ) + base.1, (i.2.1 : ℤ) + base.2.1, (i.2.2 : ℤ) + base.2.2)

theorem chunkLoop_cells (base : ZIdx) (chunk : Idx → C) (loc : ZIdx → P) (f : C → ZIdx → Color) (cells : List Idx) (m : Marker P) :
    chunkLoop base chunk loc (fun c i => some (f c i)) cells m =
      some ⟨m.points ++ (cells.filter fun i => visible (f (chunk i) (inChunk base i))).map (fun i => loc (inChunk base i)),
        m.colors ++ (cells.filter fun i => visible (f (chunk i) (inChunk base i))).map (fun i => f (chunk i) (inChunk base i))⟩ := by
  induction cells generalizing m with
  | nil => simp [chunkLoop]
  | cons i is ih =>
    simp only [chunkLoop]
    change (if visible (f (chunk i) (inChunk base i)) = true then _ else _) = _
    cases hv : visible (f (chunk i) (inChunk base i)) with
    | true =>
      simp only [if_true]
      change chunkLoop base chunk loc (fun c i => some (f c i)) is
        ⟨m.points ++ [loc (inChunk base i)], m.colors ++ [f (chunk i) (inChunk base i)]⟩ = _
      rw [ih]
      simp [hv]
    | false =>
      simp only [Bool.false_eq_true, if_false]
      rw [ih]
      simp [hv]

/-- C44 for the spatially hashed map: it shows exactly the cells with a visible colour of the chunks that exist, with
equally many points and colours. -/
theorem C44_chunks (counts : Dims) (loc : ZIdx → P) (f : C → ZIdx → Color) (chunks : List (ZIdx × (Idx → C))) :
    ∃ m, exportChunks counts loc (fun c i => some (f c i)) chunks ⟨[], []⟩ = some m ∧
      ∀ p col, (p, col) ∈ m.points.zip m.colors ↔
        ∃ base chunk i, (base, chunk) ∈ chunks ∧ counts.In i ∧ p = loc (inChunk base i) ∧
          col = f (chunk i) (inChunk base i) ∧ Opaque col := by
  have key : ∀ (chunks : List (ZIdx × (Idx → C))) (m0 : Marker P), m0.points.length = m0.colors.length →
      ∃ m, exportChunks counts loc (fun c i => some (f c i)) chunks m0 = some m ∧ m.points.length = m.colors.length ∧
        ∀ p col, (p, col) ∈ m.points.zip m.colors ↔ (p, col) ∈ m0.points.zip m0.colors ∨
          ∃ base chunk i, (base, chunk) ∈ chunks ∧ counts.In i ∧ p = loc (inChunk base i) ∧
            col = f (chunk i) (inChunk base i) ∧ Opaque col := by
    intro chunks
    induction chunks with
    | nil => intro m0 h0; exact ⟨m0, rfl, h0, by simp⟩
    | cons b rest ih =>
      obtain ⟨base, chunk⟩ := b
      intro m0 h0
      simp only [exportChunks, chunkLoop_cells]
      obtain ⟨m, hm, hl, hmem⟩ := ih ⟨m0.points ++ ((allIdx counts).filter fun i => visible (f (chunk i) (inChunk base i))).map (fun i => loc (inChunk base i)),
        m0.colors ++ ((allIdx counts).filter fun i => visible (f (chunk i) (inChunk base i))).map (fun i => f (chunk i) (inChunk base i))⟩
        (by simp [h0])
      refine ⟨m, hm, hl, ?_⟩
      intro p col
      rw [hmem]
      dsimp only
      rw [List.zip_append h0, List.mem_append, List.zip_map', or_assoc]
      refine or_congr_right ?_
      simp only [List.mem_map, List.mem_filter, mem_allIdx, visible_iff, Prod.mk.injEq, List.mem_cons]
      constructor
      · rintro (⟨i, ⟨hi, ho⟩, rfl, rfl⟩ | ⟨base', chunk', i, hmem', hi, rfl, rfl, ho⟩)
        · exact ⟨base, chunk, i, .inl ⟨rfl, rfl⟩, hi, rfl, rfl, ho⟩
        · exact ⟨base', chunk', i, .inr hmem', hi, rfl, rfl, ho⟩
      · rintro ⟨base', chunk', i, (⟨rfl, rfl⟩ | hmem'), hi, rfl, rfl, ho⟩
        · exact .inl ⟨i, ⟨hi, ho⟩, rfl, rfl⟩
        · exact .inr ⟨base', chunk', i, hmem', hi, rfl, rfl, ho⟩
  obtain ⟨m, hm, -, hmem⟩ := key chunks ⟨[], []⟩ rfl
  exact ⟨m, hm, fun p col => by rw [hmem]; simp⟩

example : exportHashedForDisplay OccCell.occ ⟨3, 1, 1⟩ [((3, 0, 0), exRow)] id exPalette =
    some ⟨[(3, 0, 0), (5, 0, 0)], [exPalette.free, exPalette.collision]⟩ := by decide +kernel

/-- C44: the three markers of a spatially hashed map show the filled, the free and the other cells of the chunks that exist,
whatever the order of the chunks. -/
theorem C44_hashed_separate_display (occ : C → Fl) (counts : Dims) (chunks : List (ZIdx × (Idx → C))) (loc : ZIdx → P)
    (p : Palette) : ∃ filled free unknown,
      exportHashedForSeparateDisplay occ counts chunks loc p = some [filled, free, unknown] ∧
      (∀ q col, (q, col) ∈ filled.points.zip filled.colors ↔ ∃ base chunk i, (base, chunk) ∈ chunks ∧ counts.In i ∧
        q = loc (inChunk base i) ∧ classOf (occ (chunk i)) = .filled ∧ col = p.collision ∧ Opaque col) ∧
      (∀ q col, (q, col) ∈ free.points.zip free.colors ↔ ∃ base chunk i, (base, chunk) ∈ chunks ∧ counts.In i ∧
        q = loc (inChunk base i) ∧ classOf (occ (chunk i)) = .empty ∧ col = p.free ∧ Opaque col) ∧
      (∀ q col, (q, col) ∈ unknown.points.zip unknown.colors ↔ ∃ base chunk i, (base, chunk) ∈ chunks ∧ counts.In i ∧
        q = loc (inChunk base i) ∧ (classOf (occ (chunk i)) = .unknown ∨ classOf (occ (chunk i)) = .undefined) ∧
        col = p.unknown ∧ Opaque col) := by
  have hno : ¬ Opaque noColor := by rw [← visible_iff, noColor_not_visible]; simp
  have one : ∀ q : Palette, ∃ m, exportHashedForDisplay occ counts chunks loc q = some m ∧
      ∀ x col, (x, col) ∈ m.points.zip m.colors ↔ ∃ base chunk i, (base, chunk) ∈ chunks ∧ counts.In i ∧
        x = loc (inChunk base i) ∧ col = paletteOf q (classOf (occ (chunk i))) ∧ Opaque col := by
    intro q
    obtain ⟨m, hm, hs⟩ := C44_chunks counts loc (fun c _ => occColor occ q c) chunks
    exact ⟨m, hm, by simpa only [occColor_eq] using hs⟩
  obtain ⟨m1, h1, s1⟩ := one ⟨p.collision, noColor, noColor⟩
  obtain ⟨m2, h2, s2⟩ := one ⟨noColor, p.free, noColor⟩
  obtain ⟨m3, h3, s3⟩ := one ⟨noColor, noColor, p.unknown⟩
  refine ⟨m1, m2, m3, ?_, ?_, ?_, ?_⟩
  · simp [exportHashedForSeparateDisplay, separatePalettes, h1, h2, h3]
  · intro q col
    rw [s1]
    refine exists_congr fun base => exists_congr fun chunk => exists_congr fun i => ?_
    refine and_congr_right fun _ => and_congr_right fun _ => and_congr_right fun _ => ?_
    cases hc : classOf (occ (chunk i)) <;> simp [paletteOf] <;> rintro rfl <;> exact hno
  · intro q col
    rw [s2]
    refine exists_congr fun base => exists_congr fun chunk => exists_congr fun i => ?_
    refine and_congr_right fun _ => and_congr_right fun _ => and_congr_right fun _ => ?_
    cases hc : classOf (occ (chunk i)) <;> simp [paletteOf] <;> rintro rfl <;> exact hno
  · intro q col
    rw [s3]
    refine exists_congr fun base => exists_congr fun chunk => exists_congr fun i => ?_
    refine and_congr_right fun _ => and_congr_right fun _ => and_congr_right fun _ => ?_
    cases hc : classOf (occ (chunk i)) <;> simp [paletteOf] <;> rintro rfl <;> exact hno

example : exportHashedForSeparateDisplay OccCell.occ ⟨3, 1, 1⟩ [((3, 0, 0), exRow)] id exPalette =
    some [⟨[(5, 0, 0)], [exPalette.collision]⟩, ⟨[(3, 0, 0)], [exPalette.free]⟩, ⟨[], []⟩] := by decide +kernel

/-! ### Surfaces -/

/-- C44 fails for surfaces: for every map the surface export is the same as the export of all cells, because the condition
tests whether the query has an answer, which it has for every cell of the grid. -/
theorem C44_surface_export_shows_all (occ : C → Fl) (d : Dims) (data : Idx → C) (loc : ZIdx → P) (p : Palette) :
    exportSurfacesForDisplay maybeAsBool occ d data loc p = exportForDisplay occ d data loc p := by
  have hcol : ∀ i, d.In i → surfaceColor maybeAsBool occ d data p (data i) (VGT.toZ i) = some (occColor occ p (data i)) := by
    intro i hi
    obtain ⟨b, hb, -⟩ := (C29_surface_decides occ d data).2 i hi
    simp [surfaceColor, hb, maybeAsBool]
  unfold exportSurfacesForDisplay exportForDisplay exportGrid
  rw [exportLoop_cells d data loc _ (fun i => occColor occ p (data i)) (allIdx d) (fun i hi => mem_allIdx.mp hi)
    (fun i hi => hcol i (mem_allIdx.mp hi)),
    exportLoop_cells d data loc _ (fun i => occColor occ p (data i)) (allIdx d) (fun i hi => mem_allIdx.mp hi) (fun _ _ => rfl)]

/-- C44, surfaces, in part: every surface cell with a visible colour is shown.
Missing: that only surface cells are shown, which does not hold. -/
theorem C44_surface_cells_shown_partial (occ : C → Fl) (d : Dims) (data : Idx → C) (loc : ZIdx → P) (p : Palette) :
    ∃ m, exportSurfacesForDisplay maybeAsBool occ d data loc p = some m ∧
      ∀ i, d.In i → isSurfaceIndex occ d data (VGT.toZ i) = some (some true) → Opaque (paletteOf p (classOf (occ (data i)))) →
        loc (VGT.toZ i) ∈ m.points := by
  obtain ⟨m, hm, -, shown, -, h1, h2, -⟩ := C44_display occ d data loc p
  refine ⟨m, (C44_surface_export_shows_all occ d data loc p).trans hm, ?_⟩
  intro i hi _ ho
  rw [h2]
  exact List.mem_map.mpr ⟨i, (h1 i).mpr ⟨hi, ho⟩, rfl⟩

/-- A cell that is not a surface cell is shown in the surface export: a map with all cells filled. -/
theorem C44_interior_cell_shown :
    ∃ (d : Dims) (data : Idx → OccCell) (p : Palette) (m : Marker ZIdx) (i : Idx), d.In i ∧
      exportSurfacesForDisplay maybeAsBool OccCell.occ d data id p = some m ∧
      isSurfaceIndex OccCell.occ d data (VGT.toZ i) = some (some false) ∧ VGT.toZ i ∈ m.points := by
  refine ⟨⟨1, 1, 1⟩, fun _ => ⟨.fin 1⟩, exPalette, ⟨[(0, 0, 0)], [exPalette.collision]⟩, (0, 0, 0), by decide,
    by decide +kernel, by decide +kernel, by decide +kernel⟩

/-- The result of `IsSurfaceIndex` used by its value. -/
def useValue (m : Option (Option Bool)) : Option Bool := m.map (Option.getD · false)

/-- C44 is false for `ExportSurfacesForSeparateDisplay` too: its three markers together show every cell that
`ExportForSeparateDisplay` shows, in the interior as well. -/
theorem C44_separate_surfaces_show_all (occ : C → Fl) (d : Dims) (data : Idx → C) (loc : ZIdx → P) (p : Palette) :
    exportSurfacesForSeparateDisplay maybeAsBool occ d data loc p = exportForSeparateDisplay occ d data loc p := by
  unfold exportSurfacesForSeparateDisplay exportForSeparateDisplay
  congr 1
  funext q
  exact C44_surface_export_shows_all occ d data loc q

/-- With the value of `IsSurfaceIndex` as the condition the export shows exactly the visible surface cells. -/
theorem C44_repaired_surface_export (occ : C → Fl) (d : Dims) (data : Idx → C) (loc : ZIdx → P) (p : Palette) :
    ∃ m, exportSurfacesForDisplay useValue occ d data loc p = some m ∧ m.points.length = m.colors.length ∧
      ShowsExactly m loc (fun i => d.In i ∧ isSurfaceIndex occ d data (VGT.toZ i) = some (some true) ∧
        Opaque (paletteOf p (classOf (occ (data i))))) (fun i => paletteOf p (classOf (occ (data i)))) := by
  have hno : ¬ Opaque noColor := by rw [← visible_iff, noColor_not_visible]; simp
  obtain ⟨m, hm, hs⟩ := exportGrid_shows d data loc (surfaceColor useValue occ d data p)
    (fun i => if isSurfaceIndex occ d data (VGT.toZ i) = some (some true) then paletteOf p (classOf (occ (data i))) else noColor) (by
      intro i hi
      obtain ⟨b, hb, -⟩ := (C29_surface_decides occ d data).2 i hi
      cases b <;> simp [surfaceColor, hb, useValue, occColor_eq])
  have hs' := shows_congr_color (shows_congr hs (cells' := fun i => d.In i ∧
      isSurfaceIndex occ d data (VGT.toZ i) = some (some true) ∧ Opaque (paletteOf p (classOf (occ (data i))))) (by
    intro i
    by_cases h : isSurfaceIndex occ d data (VGT.toZ i) = some (some true) <;> simp [h, hno]))
    (color' := fun i => paletteOf p (classOf (occ (data i)))) (by
      rintro i ⟨-, h, -⟩
      simp [h])
  exact ⟨m, hm, shows_length hs', hs'⟩

/-! ### Object colours -/

/-- C44 fails for object colours: a colour map that is not empty has no effect at all. -/
theorem C44_color_map_ignored (obj : C → ℕ) (lookup : ℕ → Color) (d : Dims) (data : Idx → C) (loc : ZIdx → P)
    (map₁ map₂ : List (ℕ × Color)) (h₁ : map₁ ≠ []) (h₂ : map₂ ≠ []) :
    exportObjects id obj lookup d data loc map₁ = exportObjects id obj lookup d data loc map₂ := by
  unfold exportObjects objectColor
  simp [h₁, h₂]

/-- And without a colour map nothing is shown. -/
theorem C44_no_color_map_shows_nothing (obj : C → ℕ) (lookup : ℕ → Color) (d : Dims) (data : Idx → C) (loc : ZIdx → P) :
    exportObjects id obj lookup d data loc [] = some ⟨[], []⟩ := by
  unfold exportObjects exportGrid
  rw [exportLoop_cells d data loc _ (fun _ => noColor) (allIdx d) (fun i hi => mem_allIdx.mp hi)
    (fun _ _ => by simp [objectColor])]
  simp [noColor_not_visible]

/-- Two objects side by side. -/
def exTwo : Idx → TagCell := fun i => ⟨.fin 1, i.1 + 1⟩

example : exportObjects id TagCell.obj (fun _ => exPalette.free) ⟨2, 1, 1⟩ exTwo id [(1, exPalette.collision)] =
    some ⟨[(0, 0, 0), (1, 0, 0)], [exPalette.free, exPalette.free]⟩ := by decide +kernel

/-- With the test the right way round the map decides: objects in the map are shown in its colour, others are not shown;
without a map every object has its own colour. -/
theorem C44_repaired_objects (obj : C → ℕ) (lookup : ℕ → Color) (d : Dims) (data : Idx → C) (loc : ZIdx → P)
    (colorMap : List (ℕ × Color)) :
    ∃ m, exportObjects Bool.not obj lookup d data loc colorMap = some m ∧ m.points.length = m.colors.length ∧
      ∃ color : Idx → Color, ShowsExactly m loc (fun i => d.In i ∧ Opaque (color i)) color ∧
        (colorMap = [] → ∀ i, color i = lookup (obj (data i))) ∧
        (colorMap ≠ [] → ∀ i, (∀ c, colorMap.lookup (obj (data i)) = some c → color i = c) ∧
          (colorMap.lookup (obj (data i)) = none → ¬ Opaque (color i))) := by
  have hno : ¬ Opaque noColor := by rw [← visible_iff, noColor_not_visible]; simp
  obtain ⟨m, hm, hs, hl⟩ := C44_grid_export d data loc (fun c _ => objectColor Bool.not lookup colorMap (obj c))
  refine ⟨m, hm, hl, _, hs, ?_, ?_⟩
  · rintro rfl i
    simp [objectColor]
  · intro hne i
    cases hl : colorMap.lookup (obj (data i)) <;> simp [objectColor, hne, hl, hno]

/-- The surface export by object shows all cells too, and with an empty colour map none. -/
theorem C44_object_surfaces_show_all (occ : C → Fl) (obj : C → ℕ) (lookup : ℕ → Color) (d : Dims) (data : Idx → C)
    (loc : ZIdx → P) (colorMap : List (ℕ × Color)) :
    exportObjectSurfaces maybeAsBool id occ obj lookup d data loc colorMap = exportObjects id obj lookup d data loc colorMap := by
  unfold exportObjectSurfaces exportObjects exportGrid
  rw [exportLoop_cells d data loc _ (fun i => objectColor id lookup colorMap (obj (data i))) (allIdx d)
      (fun i hi => mem_allIdx.mp hi) (fun i hi => by
        obtain ⟨b, hb, -⟩ := (C29_surface_decides occ d data).2 i (mem_allIdx.mp hi)
        simp [hb, maybeAsBool]),
    exportLoop_cells d data loc _ (fun i => objectColor id lookup colorMap (obj (data i))) (allIdx d)
      (fun i hi => mem_allIdx.mp hi) (fun _ _ => rfl)]

example : exportObjectSurfaces maybeAsBool id TagCell.occ TagCell.obj (fun _ => exPalette.free) ⟨2, 1, 1⟩ exTwo id
    [(1, exPalette.collision)] = some ⟨[(0, 0, 0), (1, 0, 0)], [exPalette.free, exPalette.free]⟩ := by decide +kernel

/-- With both tests repaired the surface export by object shows exactly the surface cells whose object has a visible
colour. -/
theorem C44_repaired_object_surfaces (occ : C → Fl) (obj : C → ℕ) (lookup : ℕ → Color) (d : Dims) (data : Idx → C)
    (loc : ZIdx → P) (colorMap : List (ℕ × Color)) :
    ∃ m, exportObjectSurfaces useValue Bool.not occ obj lookup d data loc colorMap = some m ∧
      m.points.length = m.colors.length ∧
      ∃ color : Idx → Color, ShowsExactly m loc (fun i => d.In i ∧ isSurfaceIndex occ d data (VGT.toZ i) = some (some true) ∧
          Opaque (color i)) color ∧
        (colorMap = [] → ∀ i, color i = lookup (obj (data i))) ∧
        (colorMap ≠ [] → ∀ i, (∀ c, colorMap.lookup (obj (data i)) = some c → color i = c) ∧
          (colorMap.lookup (obj (data i)) = none → ¬ Opaque (color i))) := by
  have hno : ¬ Opaque noColor := by rw [← visible_iff, noColor_not_visible]; simp
  obtain ⟨m, hm, hs⟩ := exportGrid_shows d data loc
    (fun c i => match useValue (isSurfaceIndex occ d data i) with
      | none => none
      | some true => some (objectColor Bool.not lookup colorMap (obj c))
      | some false => some noColor)
    (fun i => if isSurfaceIndex occ d data (VGT.toZ i) = some (some true) then
      objectColor Bool.not lookup colorMap (obj (data i)) else noColor) (by
      intro i hi
      obtain ⟨b, hb, -⟩ := (C29_surface_decides occ d data).2 i hi
      cases b <;> simp [hb, useValue])
  have hs' := shows_congr_color (shows_congr hs (cells' := fun i => d.In i ∧
      isSurfaceIndex occ d data (VGT.toZ i) = some (some true) ∧
      Opaque (objectColor Bool.not lookup colorMap (obj (data i)))) (by
    intro i
    by_cases h : isSurfaceIndex occ d data (VGT.toZ i) = some (some true) <;> simp [h, hno]))
    (color' := fun i => objectColor Bool.not lookup colorMap (obj (data i))) (by
      rintro i ⟨-, h, -⟩
      simp [h])
  refine ⟨m, hm, shows_length hs', _, hs', ?_, ?_⟩
  · rintro rfl i
    simp [objectColor]
  · intro hne i
    cases hl : colorMap.lookup (obj (data i)) <;> simp [objectColor, hne, hl, hno]

/-! ### Components and segments -/

/-- C44 for components: every cell that is not unknown has the colour of its component; unknown cells too if that is
asked for, otherwise they are grey. -/
theorem C44_components (occ : C → Fl) (comp : C → ℕ) (lookup : ℕ → Color) (d : Dims) (data : Idx → C) (loc : ZIdx → P)
    (colorUnknown : Bool) :
    ∃ m color, exportComponents occ comp lookup d data loc colorUnknown = some m ∧
      ShowsExactly m loc (fun i => d.In i ∧ Opaque (color i)) color ∧
      ∀ i, (classOf (occ (data i)) ≠ .unknown ∨ colorUnknown = true → color i = lookup (comp (data i))) ∧
        (classOf (occ (data i)) = .unknown → colorUnknown = false → color i = grey) := by
  obtain ⟨m, hm, hs, -⟩ := C44_grid_export d data loc (fun c _ => componentColor occ comp lookup colorUnknown c)
  refine ⟨m, _, hm, hs, ?_⟩
  intro i
  by_cases h : Fl.eq (occ (data i)) .half = true
  · have h' := (eq_half_iff _).mp h
    constructor
    · rintro (hne | rfl)
      · exact absurd h' hne
      · simp [componentColor]
    · rintro - rfl
      simp [componentColor, h]
  · have h' : classOf (occ (data i)) ≠ .unknown := fun hc => h ((eq_half_iff _).mpr hc)
    refine ⟨fun _ => by simp [componentColor, h], fun hc => absurd hc h'⟩

/-- C44 for spatial segments: the export throws if the segments are not up to date; otherwise it shows only cells of the
object and segment asked for, and all of them if the colours given by CRU are visible. -/
theorem C44_segment (lookup : ℕ → Color) (hotToCold : ℕ → ℕ → Color) (d : Dims) (s : TagMapSt) (loc : ZIdx → P)
    (obj seg : ℕ) :
    (s.segValid = false → exportSegment lookup hotToCold d s loc obj seg = none) ∧
    (s.segValid = true → ∃ m color, exportSegment lookup hotToCold d s loc obj seg = some m ∧
      ShowsExactly m loc (fun i => d.In i ∧ (s.data i).obj = obj ∧ (s.data i).seg = seg ∧ Opaque color) (fun _ => color) ∧
      (color = lookup seg ∨ color = hotToCold seg s.numSeg)) := by
  have hno : ¬ Opaque noColor := by rw [← visible_iff, noColor_not_visible]; simp
  constructor
  · intro h
    simp [exportSegment, TagMapSt.numSegments, h]
  · intro h
    obtain ⟨m, hm, hs, -⟩ := C44_grid_export d s.data loc (fun c _ => if c.obj = obj ∧ c.seg = seg then
      (if s.numSeg < 22 then lookup c.seg else hotToCold c.seg s.numSeg) else noColor)
    refine ⟨m, if s.numSeg < 22 then lookup seg else hotToCold seg s.numSeg, ?_, ?_, ?_⟩
    · simp [exportSegment, TagMapSt.numSegments, h, hm]
    · refine shows_congr_color (shows_congr hs ?_) ?_
      · intro i
        by_cases hc : (s.data i).obj = obj ∧ (s.data i).seg = seg
        · obtain ⟨h1, h2⟩ := hc
          simp [h1, h2]
        · rw [if_neg hc]
          constructor
          · rintro ⟨-, ho⟩; exact absurd ho hno
          · rintro ⟨-, h1, h2, -⟩; exact absurd ⟨h1, h2⟩ hc
      · rintro i ⟨-, h1, h2, -⟩
        simp [h1, h2]
    · split_ifs
      · exact .inl rfl
      · exact .inr rfl

/-! ### Signed distance fields -/

theorem rf_sum : (roundFloat (colorScaling + minColorValue) : ℚ) = 1 := by
  unfold roundFloat rne lastPlace roundHalfEven colorScaling minColorValue
  have : Int.log 2 |(13421773 / 2 ^ 24 + 13421773 / 2 ^ 26 : ℚ)| = 0 := by decide +kernel
  rw [this]
  norm_num

theorem rf_scaling : (roundFloat colorScaling : ℚ) = colorScaling := by
  have := rne_exact (K := ℚ) (p := 24) (emin := -149) 13421773 (-24) (by norm_num) (by norm_num) (by norm_num)
  unfold roundFloat colorScaling
  have e : ((13421773 : ℤ) : ℚ) * 2 ^ (-24 : ℤ) = 13421773 / 2 ^ 24 := by norm_num
  rw [← e]
  exact this

theorem rf_min : (roundFloat minColorValue : ℚ) = minColorValue := by
  have := rne_exact (K := ℚ) (p := 24) (emin := -149) 13421773 (-26) (by norm_num) (by norm_num) (by norm_num)
  unfold roundFloat minColorValue
  have e : ((13421773 : ℤ) : ℚ) * 2 ^ (-26 : ℤ) = 13421773 / 2 ^ 26 := by norm_num
  rw [← e]
  exact this

theorem rf_one : (roundFloat 1 : ℚ) = 1 := by
  have := rne_exact (K := ℚ) (p := 24) (emin := -149) 1 0 (by norm_num) (by norm_num) (by norm_num)
  simpa [roundFloat] using this

theorem roundFloat_le {x y : ℚ} (h : x ≤ y) : roundFloat x ≤ roundFloat y := rne_mono (by norm_num) h

/-- The scaled colour of a ratio of at most one in absolute value lies between `0.2f` and 1. -/
theorem scale_bounds (q : ℚ) (h : |q| ≤ 1) :
    minColorValue ≤ roundFloat (roundFloat (roundFloat |q| * colorScaling) + minColorValue) ∧
    roundFloat (roundFloat (roundFloat |q| * colorScaling) + minColorValue) ≤ 1 := by
  have hc : (0 : ℚ) < colorScaling := by unfold colorScaling; norm_num
  have h0 : (0 : ℚ) ≤ roundFloat |q| := rne_nonneg (abs_nonneg q)
  have h1 : roundFloat |q| ≤ 1 := by
    have := roundFloat_le h
    rwa [rf_one] at this
  have h2 : (0 : ℚ) ≤ roundFloat (roundFloat |q| * colorScaling) := rne_nonneg (mul_nonneg h0 hc.le)
  have h3 : roundFloat (roundFloat |q| * colorScaling) ≤ colorScaling := by
    have := roundFloat_le (x := roundFloat |q| * colorScaling) (y := colorScaling) (by nlinarith)
    rwa [rf_scaling] at this
  constructor
  · have := roundFloat_le (x := minColorValue) (y := roundFloat (roundFloat |q| * colorScaling) + minColorValue) (by linarith)
    rwa [rf_min] at this
  · have := roundFloat_le (x := roundFloat (roundFloat |q| * colorScaling) + minColorValue) (y := colorScaling + minColorValue)
      (by linarith)
    rwa [rf_sum] at this

/-- A colour component between `0.2f` and 1. -/
def ColorValue (x : Fl) : Prop := ∃ q : ℚ, x = .fin q ∧ minColorValue ≤ q ∧ q ≤ 1

/-- C44 for signed distance fields with finite distances: cells outside are shown in green, inside in red, on the boundary
in blue, with components between `0.2f` and 1; all cells if alpha is positive, otherwise none; the alpha shown is the given
one, but at most 1.  `rs` is any rounding of the
division that does not exceed one for ratios of at most one. -/
theorem C44_sdf (rs : ℚ → ℚ) (hrs : ∀ q, |q| ≤ 1 → |rs q| ≤ 1) (d : Dims) (data : Idx → Fl) (loc : ZIdx → P) (alpha : Fl)
    (hfin : ∀ i, d.In i → ∃ q, data i = .fin q) (hne : ∃ i, d.In i) :
    ∃ m color, exportSDF rs roundFloat d data loc alpha = some m ∧ m.points.length = m.colors.length ∧
      ShowsExactly m loc (fun i => d.In i ∧ Fl.lt (.fin 0) alpha = true) color ∧
      (∀ i, (∀ t : ℚ, 0 < t → alpha = .fin t → (color i).a = .fin (min t 1)) ∧ (alpha = .pinf → (color i).a = .fin 1)) ∧
      ∀ i, d.In i → ∀ q, data i = .fin q →
        (0 < q → ColorValue (color i).g ∧ (color i).r = .fin 0 ∧ (color i).b = .fin 0) ∧
        (q < 0 → ColorValue (color i).r ∧ (color i).g = .fin 0 ∧ (color i).b = .fin 0) ∧
        (q = 0 → (color i).b = .fin 1 ∧ (color i).r = .fin 0 ∧ (color i).g = .fin 0) := by
  have hsome : ∃ mm, Ser.minMaxElement id ((allIdx d).map data) = some mm := by
    rw [Ser.minMaxElement_isSome]
    constructor
    · obtain ⟨i, hi⟩ := hne
      intro h
      have : data i ∈ (allIdx d).map data := List.mem_map_of_mem (mem_allIdx.mpr hi)
      rw [h] at this
      simp at this
    · intro x hx
      obtain ⟨i, hi, rfl⟩ := List.mem_map.mp hx
      obtain ⟨q, hq⟩ := hfin i (mem_allIdx.mp hi)
      simp [hq]
  obtain ⟨⟨mn, mx⟩, hmm⟩ := hsome
  obtain ⟨hmn, hmx, hall⟩ := Ser.minMaxElement_spec hmm
  simp only [List.map_id, id] at hmn hmx hall
  obtain ⟨i1, hi1, hmn⟩ := List.mem_map.mp hmn
  obtain ⟨i2, hi2, hmx⟩ := List.mem_map.mp hmx
  obtain ⟨a, ha⟩ := hfin i1 (mem_allIdx.mp hi1)
  obtain ⟨b, hb⟩ := hfin i2 (mem_allIdx.mp hi2)
  rw [ha] at hmn
  rw [hb] at hmx
  subst hmn hmx
  obtain ⟨m, hm, hs, hl⟩ := C44_grid_export d data loc (fun distance _ => sdfColor rs roundFloat alpha (.fin a) (.fin b) distance)
  have halpha : ∀ x, (sdfColor rs roundFloat alpha (.fin a) (.fin b) x).a = clampAlpha alpha := by
    intro x
    unfold sdfColor
    split_ifs <;> rfl
  have hop : ∀ x, Opaque (sdfColor rs roundFloat alpha (.fin a) (.fin b) x) ↔ Fl.lt (.fin 0) alpha = true := by
    intro x
    rw [← visible_iff]
    unfold visible
    rw [halpha]
    unfold clampAlpha
    cases alpha with
    | nan => decide +kernel
    | ninf => decide +kernel
    | pinf => decide +kernel
    | fin q =>
      by_cases h1 : 0 < q
      · by_cases h2 : q < 1 <;> simp [Fl.lt, h1, h2]
      · simp [Fl.lt, h1]
  refine ⟨m, _, by simp [exportSDF, hmm, hm], hl, shows_congr hs (fun i => by rw [hop]), ?_, ?_⟩
  · intro i
    refine ⟨?_, ?_⟩
    · rintro t ht rfl
      rw [halpha]
      by_cases h2 : t < 1
      · simp [clampAlpha, Fl.lt, ht, h2, h2.le]
      · simp [clampAlpha, Fl.lt, ht, h2, not_lt.mp h2]
    · rintro rfl
      rw [halpha]
      decide +kernel
  intro i hi q hq
  have hbound : a ≤ q ∧ q ≤ b := by
    have := hall (data i) (List.mem_map_of_mem (mem_allIdx.mpr hi))
    rw [hq] at this
    simpa [Fl.le] using this
  rw [hq]
  have hdiv : ∀ e : ℚ, e ≠ 0 → |q / e| ≤ 1 →
      ColorValue (scaleColor rs roundFloat (.fin q) (.fin e)) := by
    intro e he hr
    unfold scaleColor
    simp only [Fl.div, he, if_false]
    exact ⟨_, rfl, scale_bounds _ (hrs _ hr)⟩
  refine ⟨?_, ?_, ?_⟩
  · intro hpos
    have : sdfColor rs roundFloat alpha (.fin a) (.fin b) (.fin q) =
        ⟨.fin 0, scaleColor rs roundFloat (.fin q) (.fin b), .fin 0, clampAlpha alpha⟩ := by
      simp [sdfColor, Fl.lt, hpos]
    rw [this]
    refine ⟨hdiv b (by linarith) ?_, rfl, rfl⟩
    rw [abs_of_nonneg (div_nonneg hpos.le (by linarith))]
    exact (div_le_one (by linarith)).mpr hbound.2
  · intro hneg
    have : sdfColor rs roundFloat alpha (.fin a) (.fin b) (.fin q) =
        ⟨scaleColor rs roundFloat (.fin q) (.fin a), .fin 0, .fin 0, clampAlpha alpha⟩ := by
      have : ¬ 0 < q := by linarith
      simp [sdfColor, Fl.lt, hneg, this]
    rw [this]
    refine ⟨hdiv a (by linarith) ?_, rfl, rfl⟩
    rw [abs_of_nonneg (div_nonneg_of_nonpos hneg.le (by linarith))]
    rw [div_le_one_of_neg (by linarith)]
    exact hbound.1
  · rintro rfl
    simp [sdfColor, Fl.lt]

/-- The double and float divisions are such roundings. -/
theorem C44_sdf_roundings (p : ℕ) (emin : ℤ) (hp : 1 ≤ p) (he : emin ≤ 0) (q : ℚ) (h : |q| ≤ 1) : |rne p emin q| ≤ 1 := by
  have h1 : rne p emin (1 : ℚ) = 1 := by
    have hm : |(1 : ℤ)| ≤ 2 ^ p := by simpa using one_le_pow₀ (M₀ := ℤ) (a := 2) (by norm_num)
    have := rne_exact (K := ℚ) (p := p) (emin := emin) 1 0 hp hm he
    simpa using this
  rw [abs_le] at h ⊢
  constructor
  · have := rne_mono (emin := emin) hp h.1
    rwa [rne_neg, h1] at this
  · have := rne_mono (emin := emin) hp h.2
    rwa [h1] at this

/-- A field with distances −1, 2, 1. -/
def exField : Idx → Fl := fun i => if i.1 = 0 then .fin (-1) else if i.1 = 1 then .fin 2 else .fin 1

example : (exportSDF (fun q => q) (fun q => q) ⟨3, 1, 1⟩ exField id (.fin (1 / 100))).map (fun m => m.points) =
    some [(0, 0, 0), (1, 0, 0), (2, 0, 0)] := by decide +kernel

/-- C44 fails for the field of a map without filled cells, whose distances are infinite: the colour is NaN. -/
theorem C44_infinite_field_has_nan_color :
    (exportSDF roundDouble roundFloat ⟨1, 1, 1⟩ (fun _ => .pinf) id (.fin 1)).map
      (fun m => m.colors.map fun c => c.g) = some [.nan] := by decide +kernel

/-- C44, collision-only export: for a `float` field exactly the cells with a distance of at most zero are shown. -/
theorem C44_sdf_collision_float (rf : ℚ → ℚ) (d : Dims) (data : Idx → Fl) (loc : ZIdx → P) (alpha : Fl)
    (hfloat : ∀ i, d.In i → toFloat rf (data i) = data i) (ha : Fl.lt (.fin 0) alpha = true) :
    ∃ m, exportSDFCollision rf d data loc alpha = some m ∧
      ShowsExactly m loc (fun i => d.In i ∧ Fl.le (data i) (.fin 0) = true) (fun _ => ⟨.fin 1, .fin 0, .fin 0, alpha⟩) := by
  have hno : ¬ Opaque noColor := by rw [← visible_iff, noColor_not_visible]; simp
  obtain ⟨m, hm, hs, -⟩ := C44_grid_export d data loc (fun distance _ =>
    if Fl.le (toFloat rf distance) (.fin 0) then (⟨.fin 1, .fin 0, .fin 0, alpha⟩ : Color) else noColor)
  refine ⟨m, hm, shows_congr_color (shows_congr hs ?_) ?_⟩
  · intro i
    refine and_congr_right fun hi => ?_
    rw [hfloat i hi]
    by_cases h : Fl.le (data i) (.fin 0) = true
    · rw [if_pos h, ← visible_iff]
      simpa [h, visible] using ha
    · rw [if_neg h]
      simp [h, hno]
  · rintro i ⟨hi, h⟩
    rw [hfloat i hi, if_pos h]

/-- C44 fails for `double` fields: a positive distance that rounds to zero in `float` is shown as a collision. -/
theorem C44_tiny_distance_shown_as_collision :
    ∃ q : ℚ, 0 < q ∧ (roundDouble q : ℚ) = q ∧
      exportSDFCollision roundFloat ⟨1, 1, 1⟩ (fun _ => .fin q) id (.fin 1) =
        some ⟨[(0, 0, 0)], [⟨.fin 1, .fin 0, .fin 0, .fin 1⟩]⟩ := by
  refine ⟨1 / 2 ^ 200, by norm_num, by decide +kernel, by decide +kernel⟩

end VGT.Props
