import Verif.Model.MapSDF
import Verif.Spec.Filled
import Verif.Lemmas.SDFGen2

set_option autoImplicit false

namespace VGT
open VGT.EDT VGT.Spec

theorem getImm_toZ {C : Type} (d : Dims) (data : Idx → C) {j : Idx} (hj : d.In j) :
    getImm d data (toZ j) = some (data j) := by
  obtain ⟨h1, h2, h3⟩ := hj
  unfold getImm
  rw [if_pos (by simp only [VGT.toZ]; omega)]
  simp [VGT.toZ]

theorem getImm_none {C : Type} (d : Dims) (data : Idx → C) {i : ZIdx} :
    getImm d data i = none ↔ ¬ ∃ j, d.In j ∧ i = toZ j := by
  constructor
  · rintro h ⟨j, hj, rfl⟩
    rw [getImm_toZ d data hj] at h
    cases h
  · intro h
    unfold getImm
    rw [if_neg]
    rintro ⟨h1, h2, h3, h4, h5, h6⟩
    refine h ⟨(i.1.toNat, i.2.1.toNat, i.2.2.toNat), ⟨by simp only; omega, by simp only; omega, by simp only; omega⟩, ?_⟩
    obtain ⟨x, y, z⟩ := i
    simp only [VGT.toZ, Prod.mk.injEq] at *
    exact ⟨by omega, by omega, by omega⟩

theorem occFilled_iff (p : GenParams) (o : Fl) : occFilled p o = true ↔ Obstacle p.unknownIsFilled o := by
  unfold occFilled Obstacle AboveHalf Fl.half
  cases o <;> cases p.unknownIsFilled <;> simp [Fl.lt, Fl.eq]

theorem isFilledPlain_toZ {C : Type} (occ : C → Fl) (m : CellMap C) (p : GenParams) {j : Idx} (hj : m.info.dims.In j) :
    isFilledPlain occ m p (toZ j) = some (occFilled p (occ (m.data j))) := by
  simp [isFilledPlain, getImm_toZ _ _ hj]

theorem isFilledTagged_toZ {C : Type} (occ : C → Fl) (obj : C → Nat) (m : CellMap C) (ids : List Nat) (p : GenParams)
    {j : Idx} (hj : m.info.dims.In j) :
    isFilledTagged occ obj m ids p (toZ j) =
      some ((ids.contains (obj (m.data j)) || ids.length == 0) && occFilled p (occ (m.data j))) := by
  simp only [isFilledTagged, getImm_toZ _ _ hj]
  split <;> simp_all

theorem isFilledNamed_toZ {C : Type} (occ : C → Fl) (obj : C → Nat) (m : CellMap C) (p : GenParams)
    {j : Idx} (hj : m.info.dims.In j) :
    isFilledNamed occ obj m p (toZ j) = some (decide (0 < obj (m.data j)) && occFilled p (occ (m.data j))) := by
  simp only [isFilledNamed, getImm_toZ _ _ hj]
  split <;> simp_all

theorem markLoop_congr {f f' : ZIdx → Option Bool} : ∀ (l : List Idx) (s : Fld × Fld),
    (∀ i ∈ l, f (toZ i) = f' (toZ i)) → markLoop f l s = markLoop f' l s
  | [], _, _ => rfl
  | i :: is, (a, b), h => by
    have h1 := h i (by simp)
    have h2 := fun s => markLoop_congr is s fun j hj => h j (by simp [hj])
    simp only [markLoop, h1, h2]

theorem genRuns_congr {ro : Rounding} {d : Dims} {res : ℝ} {f f' : ZIdx → Option Bool} {oob : Rl}
    (h : ∀ i, d.In i → f (toZ i) = f' (toZ i)) (r : Option (Idx → Rl)) :
    GenRuns ro d res f oob r ↔ GenRuns ro d res f' oob r := by
  have : markCells f d = markCells f' d := markLoop_congr _ _ fun i hi => h i (mem_allIdx.1 hi)
  unfold GenRuns
  rw [this]

theorem borderFilled_congr {d : Dims} {f f' : ZIdx → Option Bool} (h : ∀ i, d.In i → f (toZ i) = f' (toZ i)) (b : Bool)
    {v : Idx} (hv : (enlarge d).In v) : borderFilled d f b (toZ v) = borderFilled d f' b (toZ v) := by
  unfold borderFilled
  split
  · rfl
  split
  · rfl
  split
  · rfl
  rename_i h1 h2 h3
  obtain ⟨x, y, z⟩ := v
  obtain ⟨v1, v2, v3⟩ := hv
  have e1 := enl_axis v1 fun c => h1 ((cond_axis v1).2 c)
  have e2 := enl_axis v2 fun c => h2 ((cond_axis v2).2 c)
  have e3 := enl_axis v3 fun c => h3 ((cond_axis v3).2 c)
  have := h (x - queryOffset d.nx, y - queryOffset d.ny, z - queryOffset d.nz) ⟨e1.1, e2.1, e3.1⟩
  simp only [VGT.toZ] at this ⊢
  rw [e1.2.1, e2.2.1, e3.2.1]
  exact this

theorem gridRuns_congr {ro : Rounding} {g : GridInfo} {f f' : ZIdx → Option Bool} {border : Bool} {oob : Rl}
    (h : ∀ i, g.dims.In i → f (toZ i) = f' (toZ i)) (r : Option (Idx → Rl)) :
    GridGenRuns ro g f border oob r ↔ GridGenRuns ro g f' border oob r := by
  unfold GridGenRuns
  rw [genRuns_congr h]
  simp only [genRuns_congr (fun v hv => borderFilled_congr h true hv), genRuns_congr (fun v hv => borderFilled_congr h false hv)]

theorem gridRuns_isSDF {ro : Rounding} {g : GridInfo} (hok : GenOK ro g) {f : ZIdx → Option Bool} {b : Idx → Bool}
    (hb : ∀ i, g.dims.In i → f (toZ i) = some (b i)) {P : Idx → Prop} (hP : ∀ i, g.dims.In i → (b i = true ↔ P i))
    {border : Bool} {oob : Rl} {r : Option (Idx → Rl)} (hrun : GridGenRuns ro g f border oob r) :
    ∃ out, r = some out ∧ (∀ i, ¬ g.dims.In i → out i = oob) ∧ IsSDFOf ro g border P out := by
  obtain ⟨out, h1, h2, h3⟩ := gridRuns_eq hok hb hrun
  have ht : targets g.dims border b true = cellsOf g.dims border P := by
    ext z
    simp only [targets, cellsOf, Set.mem_union, Set.mem_ofPred_eq, VGT.toZ]
    refine or_congr ⟨?_, ?_⟩ Iff.rfl
    · rintro ⟨p, a, c, e⟩; exact ⟨p, a, (hP p a).1 c, e⟩
    · rintro ⟨p, a, c, e⟩; exact ⟨p, a, (hP p a).2 c, e⟩
  have hf : targets g.dims border b false = cellsOf g.dims border fun j => ¬ P j := by
    ext z
    simp only [targets, cellsOf, Set.mem_union, Set.mem_ofPred_eq, VGT.toZ]
    refine or_congr ⟨?_, ?_⟩ Iff.rfl
    · rintro ⟨p, a, c, e⟩; exact ⟨p, a, fun hp => by (rw [(hP p a).2 hp] at c; exact absurd c (by simp)), e⟩
    · rintro ⟨p, a, c, e⟩; exact ⟨p, a, by simpa using fun hh => c ((hP p a).1 hh), e⟩
  refine ⟨out, h1, h2, fun i hi => ⟨fun hp => ?_, fun hp => ?_⟩⟩
  · have : b i = false := by simpa using fun hh => hp ((hP i hi).1 hh)
    rw [h3 i hi, this, if_neg (by simp), ht]; rfl
  · rw [h3 i hi, (hP i hi).2 hp, if_pos rfl, hf]; rfl

theorem mem_objectIds {C : Type} (obj : C → Nat) (m : CellMap C) (o : Nat) :
    o ∈ objectIds obj m ↔ o ≠ 0 ∧ ∃ i, m.info.dims.In i ∧ obj (m.data i) = o := by
  simp only [objectIds, List.mem_mergeSort, List.mem_dedup, List.mem_filter, List.mem_map, decide_eq_true_eq, mem_allIdx]
  constructor
  · rintro ⟨h, h'⟩; exact ⟨by omega, h⟩
  · rintro ⟨h, h'⟩; exact ⟨h', by omega⟩

theorem separateRuns_eq {F : Type} {ext : List Nat → Option F → Prop} (hsome : ∀ l r, ext l r → r ≠ none)
    (hdet : ∀ l r r', ext l r → ext l r' → r = r') :
    ∀ (ids : List Nat) (m : Nat → Option F) (r : Option (Nat → Option F)),
      (∀ k v, m k = some v → ext [k] (some v)) → SeparateRuns ext ids m r →
      ∃ out, r = some out ∧ (∀ k v, out k = some v → ext [k] (some v)) ∧
        ∀ k, (out k).isSome ↔ ((m k).isSome ∨ k ∈ ids)
  | [], m, r, hm, h => ⟨m, h, hm, by simp⟩
  | id :: ids, m, r, hm, h => by
    rcases h with ⟨h, _⟩ | ⟨v, hv, h⟩
    · exact absurd rfl (hsome _ _ h)
    · obtain ⟨out, h1, h2, h3⟩ := separateRuns_eq hsome hdet ids (mapSet m id v) r (by
        intro k w hk
        unfold mapSet at hk
        split at hk
        · subst_vars; cases hk; exact hv
        · exact hm k w hk) h
      refine ⟨out, h1, h2, fun k => ?_⟩
      rw [h3 k]
      unfold mapSet
      by_cases hk : k = id <;> simp [hk]

theorem separateRuns_exists {F : Type} {ext : List Nat → Option F → Prop} (hex : ∀ l, ∃ r, ext l r) :
    ∀ (ids : List Nat) (m : Nat → Option F), ∃ r, SeparateRuns ext ids m r
  | [], m => ⟨_, rfl⟩
  | id :: ids, m => by
    obtain ⟨r, hr⟩ := hex [id]
    cases r with
    | none => exact ⟨none, Or.inl ⟨hr, rfl⟩⟩
    | some v =>
      obtain ⟨r, h⟩ := separateRuns_exists hex ids (mapSet m id v)
      exact ⟨r, Or.inr ⟨v, hr, h⟩⟩

end VGT
