import Verif.Model.Convert
import Verif.Props.Components
import Verif.Props.Surface

/-!
C31, cached state of converted maps; C23 for tagged maps.
-/
set_option autoImplicit false

namespace VGT
open VGT.EDT VGT.Spec

theorem storeIndex_lt {d : Dims} {i : Idx} (hi : d.In i) : storeIndex d i < storeSize d := by
  obtain ⟨h1, h2, h3⟩ := hi
  unfold storeIndex storeSize
  have e1 : i.1 * d.ny + i.2.1 + 1 ≤ d.nx * d.ny := by
    calc i.1 * d.ny + i.2.1 + 1 ≤ i.1 * d.ny + d.ny := by omega
      _ = (i.1 + 1) * d.ny := by ring
      _ ≤ d.nx * d.ny := Nat.mul_le_mul_right _ h1
  calc (i.1 * d.ny + i.2.1) * d.nz + i.2.2 < (i.1 * d.ny + i.2.1) * d.nz + d.nz := by omega
    _ = (i.1 * d.ny + i.2.1 + 1) * d.nz := by ring
    _ ≤ d.nx * d.ny * d.nz := Nat.mul_le_mul_right _ e1

theorem convertMap_some {G A B : Type} {size : G → ℕ} {conv : A → B} {f : MapOf G A} (h : f.cells.length = size f.geometry) :
    convertMap size conv (some f) = some (some ⟨f.geometry, f.frame, conv f.default, conv f.oob, f.cells.map conv⟩) := by
  simp [convertMap, h]

theorem storeAt_map {A B : Type} {conv : A → B} {d : Dims} {default : A} {cells : List A} {i : Idx} :
    storeAt d (conv default) (cells.map conv) i = conv (storeAt d default cells i) := by
  unfold storeAt
  rw [List.getElem?_map]
  cases cells[storeIndex d i]? <;> rfl

/-- C31, cached state: a map converted to a component map has no valid components, its count is not available, and its cells
are those of the source with label 0. -/
theorem C31_caches_invalid (f : MapOf Dims OccCell) (h : f.cells.length = f.geometry.nx * f.geometry.ny * f.geometry.nz) :
    ∃ s, convertedOccState (some f) = some (some s) ∧ s.valid = false ∧ s.numComponents = none ∧
      ∀ i, f.geometry.In i → ∃ c, f.cells[(i.1 * f.geometry.ny + i.2.1) * f.geometry.nz + i.2.2]? = some c ∧
        s.data i = ⟨c.occ, 0⟩ := by
  refine ⟨⟨storeAt f.geometry (toOccComp f.default) (f.cells.map toOccComp), 0, false⟩, ?_, rfl, rfl, fun i hi => ?_⟩
  · unfold convertedOccState
    rw [convertMap_some h]
    rfl
  · have hlt : storeIndex f.geometry i < f.cells.length := by rw [h]; exact storeIndex_lt hi
    refine ⟨f.cells[storeIndex f.geometry i], List.getElem?_eq_getElem hlt, ?_⟩
    show storeAt _ _ _ i = _
    rw [storeAt_map]
    unfold storeAt
    rw [List.getElem?_eq_getElem hlt]
    rfl

/-- C31, cached state, tagged maps: neither components nor spatial segments are valid. -/
theorem C31_tagged_caches_invalid (f : MapOf Dims TagCell) (h : f.cells.length = f.geometry.nx * f.geometry.ny * f.geometry.nz) :
    ∃ s, convertedTagState (some f) = some (some s) ∧ s.valid = false ∧ s.segValid = false ∧ s.numComponents = none ∧
      s.numSegments = none ∧
      ∀ i, f.geometry.In i → ∃ c, f.cells[(i.1 * f.geometry.ny + i.2.1) * f.geometry.nz + i.2.2]? = some c ∧
        s.data i = ⟨c.occ, c.obj, 0, 0⟩ := by
  refine ⟨⟨storeAt f.geometry (toTagComp f.default) (f.cells.map toTagComp), 0, 0, false, false⟩, ?_, rfl, rfl, rfl, rfl,
    fun i hi => ?_⟩
  · unfold convertedTagState
    rw [convertMap_some h]
    rfl
  · have hlt : storeIndex f.geometry i < f.cells.length := by rw [h]; exact storeIndex_lt hi
    refine ⟨f.cells[storeIndex f.geometry i], List.getElem?_eq_getElem hlt, ?_⟩
    show storeAt _ _ _ i = _
    rw [storeAt_map]
    unfold storeAt
    rw [List.getElem?_eq_getElem hlt]
    rfl

/-- C31, a map that is not initialized. -/
theorem C31_not_initialized : convertedOccState none = some none ∧ convertedTagState none = some none := ⟨rfl, rfl⟩

/-- C23 for the tagged map: an update right after an update changes nothing, whatever its mode. -/
theorem C23_tagged_repeat_is_identity (d : Dims) (s s' : TagMapSt) (n : ℕ) (across across' : Bool)
    (h : s.update d across = some (s', n)) : s'.update d across' = some (s', n) := by
  unfold TagMapSt.update at h
  split at h
  · cases h; simp_all [TagMapSt.update]
  · split at h
    · cases h
    · cases h; simp [TagMapSt.update]

/-- Two cells along x, the second filled, belonging to object 7. -/
def exConvert : MapOf Dims TagCell :=
  { geometry := ⟨2, 1, 1⟩, frame := "world", default := ⟨.fin 0, 0⟩, oob := ⟨.fin (1 / 2), 0⟩, cells := [⟨.fin 0, 0⟩, ⟨.fin 1, 7⟩] }

example : exConvert.cells.length = exConvert.geometry.nx * exConvert.geometry.ny * exConvert.geometry.nz ∧
    ((convertedTagState (some exConvert)).map fun s => s.map fun s => (s.valid, s.segValid, s.data (1, 0, 0))) =
      some (some (false, false, ⟨.fin 1, 7, 0, 0⟩)) := by decide +kernel

end VGT
