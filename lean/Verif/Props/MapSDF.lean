import Verif.Lemmas.MapSDF
import Verif.Props.SDFGen

/-!
C08, C09: which cells are obstacles for each map type, per-object SDFs, free/named SDF.
-/
set_option autoImplicit false

namespace VGT
open VGT.EDT VGT.Spec

/-! ### C08 -/

/-- C08. `OccupancyMap` and `OccupancyComponentMap`: a query throws exactly outside the grid, and inside
answers exactly "obstacle". -/
theorem C08_plain_filled {C : Type} (occ : C → Fl) (m : CellMap C) (p : GenParams) :
    (∀ i, isFilledPlain occ m p i = none ↔ ¬ ∃ j, m.info.dims.In j ∧ i = toZ j) ∧
    ∀ j, m.info.dims.In j →
      (isFilledPlain occ m p (toZ j) = some true ↔ Obstacle p.unknownIsFilled (occ (m.data j))) ∧
      (isFilledPlain occ m p (toZ j) = some false ↔ ¬ Obstacle p.unknownIsFilled (occ (m.data j))) := by
  refine ⟨fun i => ?_, fun j hj => ?_⟩
  · rw [← getImm_none m.info.dims m.data]
    unfold isFilledPlain
    split <;> simp_all
  · rw [isFilledPlain_toZ _ _ _ hj, ← occFilled_iff]
    simp

/-- C08. The tagged maps: as above, and the object id must be listed unless the list is empty. -/
theorem C08_tagged_filled {C : Type} (occ : C → Fl) (obj : C → Nat) (m : CellMap C) (ids : List Nat) (p : GenParams) :
    (∀ i, isFilledTagged occ obj m ids p i = none ↔ ¬ ∃ j, m.info.dims.In j ∧ i = toZ j) ∧
    ∀ j, m.info.dims.In j →
      (isFilledTagged occ obj m ids p (toZ j) = some true ↔
        (ids = [] ∨ obj (m.data j) ∈ ids) ∧ Obstacle p.unknownIsFilled (occ (m.data j))) ∧
      (isFilledTagged occ obj m ids p (toZ j) = some false ↔
        ¬ ((ids = [] ∨ obj (m.data j) ∈ ids) ∧ Obstacle p.unknownIsFilled (occ (m.data j)))) := by
  refine ⟨fun i => ?_, fun j hj => ?_⟩
  · rw [← getImm_none m.info.dims m.data]
    unfold isFilledTagged
    split
    · split <;> simp_all
    · simp_all
  · rw [isFilledTagged_toZ _ _ _ _ _ hj, ← occFilled_iff]
    cases occFilled p (occ (m.data j)) <;> simp [or_comm, and_comm]

/-- C08. Generation never asks about a cell outside the grid: its possible outcomes are unchanged if the
filled function is replaced by any other one that agrees inside the grid (for instance one that throws, or
answers differently, outside). -/
theorem C08_never_queries_outside {ro : Rounding} {g : GridInfo} {f f' : ZIdx → Option Bool} {border : Bool} {oob : Rl}
    (h : ∀ i, g.dims.In i → f (toZ i) = f' (toZ i)) (r : Option (Idx → Rl)) :
    GridGenRuns ro g f border oob r ↔ GridGenRuns ro g f' border oob r := gridRuns_congr h r

/-- C08. End to end: the extracted SDF of an occupancy (component) map is the signed distance field of its
obstacle cells, for every schedule and parameter combination. -/
theorem C08_extract_plain {C : Type} {occ : C → Fl} {ro : Rounding} {m : CellMap C} {p : GenParams}
    (hok : GenOK ro m.info) {r : Option (Idx → Rl)} (hrun : ExtractPlain occ ro m p r) :
    ∃ out, r = some out ∧ (∀ i, ¬ m.info.dims.In i → out i = p.oob) ∧
      IsSDFOf ro m.info p.addBorder (fun i => Obstacle p.unknownIsFilled (occ (m.data i))) out :=
  gridRuns_isSDF hok (fun _ hj => isFilledPlain_toZ occ m p hj) (fun _ _ => occFilled_iff _ _) hrun

/-- C08. End to end for the tagged maps. -/
theorem C08_extract_tagged {C : Type} {occ : C → Fl} {obj : C → Nat} {ro : Rounding} {m : CellMap C} {p : GenParams}
    (hok : GenOK ro m.info) {ids : List Nat} {r : Option (Idx → Rl)} (hrun : ExtractTagged occ obj ro m p ids r) :
    ∃ out, r = some out ∧ (∀ i, ¬ m.info.dims.In i → out i = p.oob) ∧
      IsSDFOf ro m.info p.addBorder
        (fun i => (ids = [] ∨ obj (m.data i) ∈ ids) ∧ Obstacle p.unknownIsFilled (occ (m.data i))) out := by
  refine gridRuns_isSDF hok (fun _ hj => isFilledTagged_toZ occ obj m ids p hj) (fun i _ => ?_) hrun
  rw [← occFilled_iff]
  simp [or_comm]

/-- Example map: 12×3×1, cell (2,1,0) filled with object 7, cell (3,1,0) unknown with object 4, NaN at
(0,0,0), +inf at (1,0,0), the rest free with object 0. -/
noncomputable def exTag : CellMap TagCell where
  info := exGrid
  data := fun i =>
    if i = (2, 1, 0) then ⟨.fin 1, 7⟩ else if i = (3, 1, 0) then ⟨.fin (1 / 2), 4⟩
    else if i = (0, 0, 0) then ⟨.nan, 0⟩ else if i = (1, 0, 0) then ⟨.pinf, 0⟩ else ⟨.fin 0, 0⟩

/-- Concrete cases: listed object, unlisted object, unknown with both settings, NaN, +inf, outside. -/
example : isFilledTagged TagCell.occ TagCell.obj exTag [7] ⟨.fin 0, true, false⟩ (2, 1, 0) = some true ∧
    isFilledTagged TagCell.occ TagCell.obj exTag [4] ⟨.fin 0, true, false⟩ (2, 1, 0) = some false ∧
    isFilledTagged TagCell.occ TagCell.obj exTag [] ⟨.fin 0, true, false⟩ (3, 1, 0) = some true ∧
    isFilledTagged TagCell.occ TagCell.obj exTag [] ⟨.fin 0, false, false⟩ (3, 1, 0) = some false ∧
    isFilledPlain TagCell.occ exTag ⟨.fin 0, true, false⟩ (0, 0, 0) = some false ∧
    isFilledPlain TagCell.occ exTag ⟨.fin 0, true, false⟩ (1, 0, 0) = some true ∧
    isFilledPlain TagCell.occ exTag ⟨.fin 0, true, false⟩ (0, -1, 0) = none ∧
    isFilledPlain TagCell.occ exTag ⟨.fin 0, true, false⟩ (0, 3, 0) = none := by
  simp [isFilledTagged, isFilledPlain, getImm, exTag, exGrid, occFilled, Fl.lt, Fl.eq, Fl.half]
  norm_num

/-- Concrete run meeting the hypotheses of the end-to-end theorems. -/
example : ∃ out, ExtractTagged TagCell.occ TagCell.obj exactRounding exTag ⟨.fin 0, true, true⟩ [7] (some out) ∧
    IsSDFOf exactRounding exGrid true
      (fun i => ([7] = [] ∨ (exTag.data i).obj ∈ [7]) ∧ Obstacle true (exTag.data i).occ) out := by
  obtain ⟨r, hr⟩ := gridRuns_exists (g := exTag.info) exGrid_ok
    (isFilledTagged TagCell.occ TagCell.obj exTag [7] ⟨.fin 0, true, true⟩) true (.fin 0)
  obtain ⟨out, rfl, _, h⟩ := C08_extract_tagged (p := ⟨.fin 0, true, true⟩) exGrid_ok hr
  exact ⟨out, hr, h⟩

/-- C06 for the parameter: turning unknown-is-filled on never increases any distance. -/
theorem C06_unknown_is_filled_monotone {C : Type} {occ : C → Fl} {ro : Rounding} {m : CellMap C} {border : Bool}
    {oob oob' : Rl} (hok : GenOK ro m.info) {r r' : Option (Idx → Rl)}
    (hrun : ExtractPlain occ ro m ⟨oob, false, border⟩ r) (hrun' : ExtractPlain occ ro m ⟨oob', true, border⟩ r') :
    ∃ out out', r = some out ∧ r' = some out' ∧ ∀ i, m.info.dims.In i → Rl.le (out' i) (out i) := by
  refine C06_monotone_in_filled hok (fun _ hj => isFilledPlain_toZ occ m _ hj) (fun _ hj => isFilledPlain_toZ occ m _ hj)
    (fun i _ h => ?_) hrun hrun'
  rw [occFilled_iff] at *
  exact h.imp id fun ⟨h, _⟩ => absurd h (by simp)

/-! ### C09 -/

/-- C09. `MakeSeparateObjectSDFs` has exactly the requested ids as keys (repetitions do not matter) and
under each key the field that `ExtractSignedDistanceField` produces for that single id. -/
theorem C09_separate_object_sdfs {C : Type} {occ : C → Fl} {obj : C → Nat} {ro : Rounding} {m : CellMap C} {p : GenParams}
    (hok : GenOK ro m.info) {ids : List Nat} {r : Option (Nat → Option (Idx → Rl))} (hrun : MakeSeparate occ obj ro m p ids r) :
    ∃ sdfs, r = some sdfs ∧ (∀ k, (sdfs k).isSome ↔ k ∈ ids) ∧
      ∀ k v, sdfs k = some v → ExtractTagged occ obj ro m p [k] (some v) ∧
        ∀ v', ExtractTagged occ obj ro m p [k] v' → v' = some v := by
  obtain ⟨out, h1, h2, h3⟩ := separateRuns_eq (ext := ExtractTagged occ obj ro m p)
    (fun l r h => by obtain ⟨o, rfl, _⟩ := C08_extract_tagged hok h; simp)
    (fun l r r' h h' => gridRuns_det h h') ids _ r (by simp) hrun
  exact ⟨out, h1, by simpa using h3, fun k v hv => ⟨h2 k v hv, fun v' h' => gridRuns_det h' (h2 k v hv)⟩⟩

/-- C09. Spelled out: the field stored for id `k` is the signed distance field of the obstacle cells that
carry `k`. -/
theorem C09_separate_object_contents {C : Type} {occ : C → Fl} {obj : C → Nat} {ro : Rounding} {m : CellMap C} {p : GenParams}
    (hok : GenOK ro m.info) {ids : List Nat} {r : Option (Nat → Option (Idx → Rl))} (hrun : MakeSeparate occ obj ro m p ids r) :
    ∃ sdfs, r = some sdfs ∧ ∀ k, k ∈ ids → ∃ v, sdfs k = some v ∧ IsSDFOf ro m.info p.addBorder
      (fun i => obj (m.data i) = k ∧ Obstacle p.unknownIsFilled (occ (m.data i))) v := by
  obtain ⟨sdfs, h1, h2, h3⟩ := C09_separate_object_sdfs hok hrun
  refine ⟨sdfs, h1, fun k hk => ?_⟩
  obtain ⟨v, hv⟩ := Option.isSome_iff_exists.1 ((h2 k).2 hk)
  obtain ⟨out, ho, _, h⟩ := C08_extract_tagged hok (h3 k v hv).1
  cases ho
  refine ⟨v, hv, ?_⟩
  have : (fun i => ([k] = [] ∨ obj (m.data i) ∈ [k]) ∧ Obstacle p.unknownIsFilled (occ (m.data i))) =
      fun i => obj (m.data i) = k ∧ Obstacle p.unknownIsFilled (occ (m.data i)) := by
    funext i; simp
  rwa [this] at h

/-- C09. `MakeAllObjectSDFs` has a key exactly for every non-zero id that some cell of the grid carries
(whatever that cell's occupancy), with the field of that object. -/
theorem C09_all_object_sdfs {C : Type} {occ : C → Fl} {obj : C → Nat} {ro : Rounding} {m : CellMap C} {p : GenParams}
    (hok : GenOK ro m.info) {r : Option (Nat → Option (Idx → Rl))} (hrun : MakeAll occ obj ro m p r) :
    ∃ sdfs, r = some sdfs ∧
      (∀ k, (sdfs k).isSome ↔ k ≠ 0 ∧ ∃ i, m.info.dims.In i ∧ obj (m.data i) = k) ∧
      ∀ k v, sdfs k = some v → IsSDFOf ro m.info p.addBorder
        (fun i => obj (m.data i) = k ∧ Obstacle p.unknownIsFilled (occ (m.data i))) v := by
  obtain ⟨sdfs, h1, h2, _⟩ := C09_separate_object_sdfs hok hrun
  obtain ⟨sdfs', h1', h3⟩ := C09_separate_object_contents hok hrun
  rw [h1] at h1'
  cases h1'
  refine ⟨sdfs, h1, fun k => by rw [h2, mem_objectIds], fun k v hv => ?_⟩
  obtain ⟨v', hv', h⟩ := h3 k ((h2 k).1 (by simp [hv]))
  rw [hv] at hv'
  cases hv'
  exact h

/-- C09. The combined field: a free cell holds the distance to the nearest obstacle, an obstacle cell of a
named object (id ≥ 1) minus the distance to the nearest cell that is not a named obstacle, and an obstacle
cell without a name exactly zero. -/
theorem C09_free_and_named {C : Type} {occ : C → Fl} {obj : C → Nat} {ro : Rounding} {m : CellMap C} {p : GenParams}
    (hok : GenOK ro m.info) {r : Option (Idx → Rl)} (hrun : ExtractFreeAndNamed occ obj ro m p r) :
    ∃ out, r = some out ∧ ∀ i, m.info.dims.In i →
      (¬ Obstacle p.unknownIsFilled (occ (m.data i)) → out i = scaled ro.rr ro.cast m.info.sx
        (sqDistZ (cellsOf m.info.dims p.addBorder fun j => Obstacle p.unknownIsFilled (occ (m.data j))) (toZ i))) ∧
      (Obstacle p.unknownIsFilled (occ (m.data i)) → 0 < obj (m.data i) → out i = (scaled ro.rr ro.cast m.info.sx
        (sqDistZ (cellsOf m.info.dims p.addBorder
          fun j => ¬ (0 < obj (m.data j) ∧ Obstacle p.unknownIsFilled (occ (m.data j)))) (toZ i))).neg) ∧
      (Obstacle p.unknownIsFilled (occ (m.data i)) → obj (m.data i) = 0 → out i = .fin 0) := by
  have hbP : ∀ i, m.info.dims.In i → (occFilled p (occ (m.data i)) = true ↔ Obstacle p.unknownIsFilled (occ (m.data i))) :=
    fun i _ => occFilled_iff _ _
  have hbN : ∀ i, m.info.dims.In i → ((decide (0 < obj (m.data i)) && occFilled p (occ (m.data i))) = true ↔
      (0 < obj (m.data i) ∧ Obstacle p.unknownIsFilled (occ (m.data i)))) := by
    intro i _
    rw [← occFilled_iff]; simp
  have hF := fun i (hi : m.info.dims.In i) => isFilledPlain_toZ occ m p hi
  have hN := fun i (hi : m.info.dims.In i) => isFilledNamed_toZ occ obj m p hi
  rcases hrun with ⟨h, _⟩ | ⟨free, hfree, ⟨h, _⟩ | ⟨named, hnamed, hr⟩⟩
  · obtain ⟨_, h, _⟩ := gridRuns_isSDF hok hF hbP h; cases h
  · obtain ⟨_, h, _⟩ := gridRuns_isSDF hok hN hbN h; cases h
  obtain ⟨_, e1, _, s1⟩ := gridRuns_isSDF hok hF hbP hfree
  obtain ⟨_, e2, _, s2⟩ := gridRuns_isSDF hok hN hbN hnamed
  obtain ⟨_, e3, c1⟩ := C03_sign_and_magnitude hok hF hfree
  obtain ⟨_, e4, c2⟩ := C03_sign_and_magnitude hok hN hnamed
  cases e1; cases e2; cases e3; cases e4
  have hpos := hok.castPos
  refine ⟨_, hr, fun i hi => ?_⟩
  simp only [hi, if_true]
  have c1 := c1 i hi
  have c2 := c2 i hi
  have s1 := s1 i hi
  have s2 := s2 i hi
  have hneg : ∀ v : Rl, Rl.le v (.fin (-(ro.cast m.info.sx))) → ¬ Rl.le (.fin 0) v := by
    intro v h h'
    cases v <;> simp only [Rl.le] at h h'
    linarith
  have hle0 : ∀ v : Rl, Rl.le v (.fin (-(ro.cast m.info.sx))) → Rl.le v (.fin 0) := by
    intro v h
    cases v <;> simp only [Rl.le] at h ⊢
    linarith
  have hge0 : ∀ v : Rl, Rl.le (.fin (ro.cast m.info.sx)) v → Rl.le (.fin 0) v ∧ ¬ Rl.le v (.fin 0) := by
    intro v h
    cases v <;> simp only [Rl.le, not_false_eq_true, and_self, not_le] at h ⊢
    constructor <;> linarith
  refine ⟨fun h => ?_, fun h ho => ?_, fun h ho => ?_⟩
  · have hb : occFilled p (occ (m.data i)) = false := by simpa using fun hh => h ((hbP i hi).1 hh)
    unfold borderCombine
    rw [if_pos (hge0 _ (c1.1 hb)).1]
    exact s1.1 h
  · unfold borderCombine
    rw [if_neg (hneg _ (c1.2.1 ((hbP i hi).2 h))), if_pos (hle0 _ (c2.2.1 ((hbN i hi).2 ⟨ho, h⟩)))]
    exact s2.2 ⟨ho, h⟩
  · have hb : (decide (0 < obj (m.data i)) && occFilled p (occ (m.data i))) = false := by simp [ho]
    unfold borderCombine
    rw [if_neg (hneg _ (c1.2.1 ((hbP i hi).2 h))), if_neg (hge0 _ (c2.1 hb)).2]

/-- Concrete case: on the example map `MakeAllObjectSDFs` has keys 4 and 7 but neither 0 nor 5. -/
example : ∃ sdfs, MakeAll TagCell.occ TagCell.obj exactRounding exTag ⟨.fin 0, false, false⟩ (some sdfs) ∧
    (sdfs 4).isSome ∧ (sdfs 7).isSome ∧ sdfs 0 = none ∧ sdfs 5 = none := by
  obtain ⟨r, hr⟩ := separateRuns_exists (ext := ExtractTagged TagCell.occ TagCell.obj exactRounding exTag ⟨.fin 0, false, false⟩)
    (fun l => gridRuns_exists exGrid_ok _ _ _) (objectIds TagCell.obj exTag) (fun _ => none)
  obtain ⟨sdfs, rfl, h, _⟩ := C09_all_object_sdfs (p := ⟨.fin 0, false, false⟩) exGrid_ok hr
  refine ⟨sdfs, hr, (h 4).2 ⟨by simp, (3, 1, 0), by decide, by simp [exTag]⟩,
    (h 7).2 ⟨by simp, (2, 1, 0), by decide, by simp [exTag]⟩, ?_, ?_⟩
  · have := h 0
    simpa using this
  · have := mt (h 5).1
    rw [Option.not_isSome_iff_eq_none] at this
    apply this
    rintro ⟨_, i, _, hi⟩
    simp only [exTag] at hi
    split_ifs at hi <;> simp_all

/-- Concrete case for the combined field: on a map where (2,1,0) is filled and named and (1,0,0) is filled
without a name, the latter holds zero. -/
example : ∃ out, ExtractFreeAndNamed TagCell.occ TagCell.obj exactRounding exTag ⟨.fin 0, false, true⟩ (some out) ∧
    out (1, 0, 0) = .fin 0 ∧ Rl.le (out (2, 1, 0)) (.fin 0) := by
  obtain ⟨r1, h1⟩ := gridRuns_exists (g := exTag.info) exGrid_ok (isFilledPlain TagCell.occ exTag ⟨.fin 0, false, true⟩) true (.fin 0)
  obtain ⟨r2, h2⟩ := gridRuns_exists (g := exTag.info) exGrid_ok (isFilledNamed TagCell.occ TagCell.obj exTag ⟨.fin 0, false, true⟩) true (.fin 0)
  obtain ⟨f1, rfl, _⟩ := C03_sign_and_magnitude exGrid_ok (fun _ hi => isFilledPlain_toZ TagCell.occ exTag _ hi) h1
  obtain ⟨f2, rfl, _⟩ := C03_sign_and_magnitude exGrid_ok (fun _ hi => isFilledNamed_toZ TagCell.occ TagCell.obj exTag _ hi) h2
  have hrun : ExtractFreeAndNamed TagCell.occ TagCell.obj exactRounding exTag ⟨.fin 0, false, true⟩
      (some fun i => if exTag.info.dims.In i then borderCombine (f1 i) (f2 i) else f1 i) :=
    Or.inr ⟨f1, h1, Or.inr ⟨f2, h2, rfl⟩⟩
  obtain ⟨out, ho, h⟩ := C09_free_and_named exGrid_ok hrun
  refine ⟨out, ho ▸ hrun, (h (1, 0, 0) (by decide)).2.2 ?_ ?_, ?_⟩
  · left; left; simp [exTag]
  · simp [exTag]
  · rw [(h (2, 1, 0) (by decide)).2.1 (by left; right; exact ⟨1, by simp [exTag], by norm_num⟩) (by simp [exTag])]
    exact neg_scaled_le_zero exact_rr exact_rr exGrid_ok.res _

end VGT
