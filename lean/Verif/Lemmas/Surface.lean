import Verif.Model.Surface
import Verif.Spec.Surface
import Verif.Lemmas.Components

set_option autoImplicit false

namespace VGT
open VGT.EDT VGT.Spec

section
variable {C : Type} {d : Dims}

theorem checkInBounds_toZ {i : Idx} : checkInBounds d (toZ i) = true ↔ d.In i := by
  unfold checkInBounds VGT.toZ Dims.In
  rw [Bool.and_eq_true, Bool.and_eq_true, Bool.and_eq_true, Bool.and_eq_true, Bool.and_eq_true]
  simp only [decide_eq_true_eq]
  omega

theorem checkInBounds_iff {i : ZIdx} : checkInBounds d i = true ↔ ∃ j, d.In j ∧ i = toZ j := by
  constructor
  · intro h
    simp only [checkInBounds, Bool.and_eq_true, decide_eq_true_eq] at h
    refine ⟨toN i, ?_, ?_⟩
    · simp only [Dims.In, toN]; omega
    · obtain ⟨a, b, c⟩ := i
      simp only [toN, VGT.toZ, Prod.mk.injEq] at h ⊢
      omega
  · rintro ⟨j, hj, rfl⟩
    exact checkInBounds_toZ.2 hj

theorem toZ_inj {i j : Idx} : toZ i = toZ j ↔ i = j := by
  constructor
  · intro h
    rw [← toN_toZ i, h, toN_toZ]
  · rintro rfl; rfl

theorem mem_loopRange {lo hi k : ℤ} : k ∈ loopRange lo hi ↔ lo ≤ k ∧ k ≤ hi := by
  simp only [loopRange, List.mem_map, List.mem_range]
  constructor
  · rintro ⟨n, hn, rfl⟩; omega
  · intro h
    exact ⟨(k - lo).toNat, by omega, by omega⟩

theorem mem_neighborhood {i j : ZIdx} : j ∈ neighborhood d i ↔
    (max 0 (i.1 - 1) ≤ j.1 ∧ j.1 ≤ min ((d.nx : ℤ) - 1) (i.1 + 1)) ∧
    (max 0 (i.2.1 - 1) ≤ j.2.1 ∧ j.2.1 ≤ min ((d.ny : ℤ) - 1) (i.2.1 + 1)) ∧
    (max 0 (i.2.2 - 1) ≤ j.2.2 ∧ j.2.2 ≤ min ((d.nz : ℤ) - 1) (i.2.2 + 1)) := by
  obtain ⟨a, b, c⟩ := j
  simp only [neighborhood, List.mem_flatMap, List.mem_map, mem_loopRange, Prod.mk.injEq]
  constructor
  · rintro ⟨x, hx, y, hy, z, hz, rfl, rfl, rfl⟩
    exact ⟨hx, hy, hz⟩
  · rintro ⟨hx, hy, hz⟩
    exact ⟨a, hx, b, hy, c, hz, rfl, rfl, rfl⟩

theorem neighborhood_in {i j : ZIdx} (h : j ∈ neighborhood d i) : ∃ k, d.In k ∧ j = toZ k := by
  rw [mem_neighborhood] at h
  apply checkInBounds_iff.1
  simp only [checkInBounds, Bool.and_eq_true, decide_eq_true_eq]
  omega

theorem toZ_mem_neighborhood {i j : Idx} : toZ j ∈ neighborhood d (toZ i) ↔
    d.In j ∧ (i.1 ≤ j.1 + 1 ∧ j.1 ≤ i.1 + 1) ∧ (i.2.1 ≤ j.2.1 + 1 ∧ j.2.1 ≤ i.2.1 + 1) ∧ (i.2.2 ≤ j.2.2 + 1 ∧ j.2.2 ≤ i.2.2 + 1) := by
  rw [mem_neighborhood]
  simp only [VGT.toZ, Dims.In]
  omega

theorem surfaceLoop_spec (occ : C → Fl) (data : Idx → C) (i : Idx) (our : Fl) :
    ∀ l : List ZIdx, (∀ j ∈ l, ∃ k, d.In k ∧ j = toZ k) →
      ∃ b, surfaceLoop occ d data (toZ i) our l = some b ∧
        (b = true ↔ ∃ k, toZ k ∈ l ∧ k ≠ i ∧ transition our (occ (data k)) = true)
  | [], _ => ⟨false, rfl, by simp⟩
  | j :: js, h => by
    obtain ⟨k, hk, rfl⟩ := h j (by simp)
    obtain ⟨b, hb, hiff⟩ := surfaceLoop_spec occ data i our js fun j hj => h j (by simp [hj])
    have hne : ((toZ k).1 ≠ (toZ i).1 ∨ (toZ k).2.1 ≠ (toZ i).2.1 ∨ (toZ k).2.2 ≠ (toZ i).2.2) ↔ k ≠ i := by
      obtain ⟨a, b, c⟩ := k
      obtain ⟨a', b', c'⟩ := i
      simp only [VGT.toZ, ne_eq, Prod.mk.injEq]
      omega
    rw [surfaceLoop]
    by_cases hki : k = i
    · rw [if_neg (by rw [hne]; simpa using hki)]
      refine ⟨b, hb, ?_⟩
      rw [hiff]
      constructor
      · rintro ⟨k', h1, h2, h3⟩
        exact ⟨k', by simp [h1], h2, h3⟩
      · rintro ⟨k', h1, h2, h3⟩
        rcases List.mem_cons.1 h1 with h1 | h1
        · exact absurd (toZ_inj.1 h1 ▸ hki) h2
        · exact ⟨k', h1, h2, h3⟩
    · rw [if_pos (by rw [hne]; exact hki), getImm_toZ _ _ hk]
      dsimp only
      by_cases ht : transition our (occ (data k)) = true
      · rw [if_pos ht]
        exact ⟨true, rfl, fun _ => ⟨k, by simp, hki, ht⟩, fun _ => rfl⟩
      · rw [if_neg ht]
        refine ⟨b, hb, ?_⟩
        rw [hiff]
        constructor
        · rintro ⟨k', h1, h2, h3⟩
          exact ⟨k', by simp [h1], h2, h3⟩
        · rintro ⟨k', h1, h2, h3⟩
          rcases List.mem_cons.1 h1 with h1 | h1
          · rw [toZ_inj.1 h1] at h3
            exact absurd h3 ht
          · exact ⟨k', h1, h2, h3⟩

theorem isSurfaceIndex_toZ (occ : C → Fl) (data : Idx → C) {i : Idx} (hi : d.In i) :
    ∃ b, isSurfaceIndex occ d data (toZ i) = some (some b) ∧
      (b = true ↔ ∃ j, d.In j ∧ Near26 i j ∧ transition (occ (data i)) (occ (data j)) = true) := by
  obtain ⟨b, hb, hiff⟩ := surfaceLoop_spec occ data i (occ (data i)) (neighborhood d (toZ i)) fun j hj => neighborhood_in hj
  refine ⟨b, ?_, ?_⟩
  · rw [isSurfaceIndex, if_pos (checkInBounds_toZ.2 hi), getImm_toZ _ _ hi]
    dsimp only
    rw [hb]
    rfl
  · rw [hiff]
    constructor
    · rintro ⟨k, h1, h2, h3⟩
      rw [toZ_mem_neighborhood] at h1
      exact ⟨k, h1.1, ⟨fun h => h2 h.symm, h1.2⟩, h3⟩
    · rintro ⟨k, h1, h2, h3⟩
      exact ⟨k, toZ_mem_neighborhood.2 ⟨h1, h2.2⟩, fun h => h2.1 h.symm, h3⟩

theorem lt_half_iff (a : Fl) : Fl.lt a .half = true ↔ classOf a = .empty := by
  cases a with
  | fin q =>
    simp only [Fl.lt, Fl.half, classOf, decide_eq_true_eq]
    rcases lt_trichotomy q (1 / 2) with h | h | h
    · rw [if_pos h]; simpa using h
    · rw [if_neg (by rw [h]; exact lt_irrefl _), if_pos h]; simp [h]
    · rw [if_neg (not_lt.2 h.le), if_neg h.ne']; simpa using h.le
  | _ => simp [Fl.lt, Fl.half, classOf]

theorem half_lt_iff (a : Fl) : Fl.lt .half a = true ↔ classOf a = .filled := by
  cases a with
  | fin q =>
    simp only [Fl.lt, Fl.half, classOf, decide_eq_true_eq]
    rcases lt_trichotomy q (1 / 2) with h | h | h
    · rw [if_pos h]; simp only [reduceCtorEq, iff_false, not_lt]; exact h.le
    · rw [if_neg (by rw [h]; exact lt_irrefl _), if_pos h]; simp [h]
    · rw [if_neg (not_lt.2 h.le), if_neg h.ne']; simpa using h
  | _ => simp [Fl.lt, Fl.half, classOf]

theorem eq_half_iff (a : Fl) : Fl.eq a .half = true ↔ classOf a = .unknown := by
  cases a with
  | fin q =>
    simp only [Fl.eq, Fl.half, classOf, decide_eq_true_eq]
    rcases lt_trichotomy q (1 / 2) with h | h | h
    · rw [if_pos h]; simpa using h.ne
    · rw [if_neg (by rw [h]; exact lt_irrefl _), if_pos h]; simp [h]
    · rw [if_neg (not_lt.2 h.le), if_neg h.ne']; simpa using h.ne'
  | _ => simp [Fl.eq, Fl.half, classOf]

theorem half_le_iff (a : Fl) : Fl.le .half a = true ↔ classOf a = .filled ∨ classOf a = .unknown := by
  cases a with
  | fin q =>
    simp only [Fl.le, Fl.half, classOf, decide_eq_true_eq]
    rcases lt_trichotomy q (1 / 2) with h | h | h
    · rw [if_pos h]; simpa using h
    · rw [if_neg (by rw [h]; exact lt_irrefl _), if_pos h]; simp [h]
    · rw [if_neg (not_lt.2 h.le), if_neg h.ne']; simpa using h.le
  | _ => simp [Fl.le, Fl.half, classOf]

theorem le_half_iff (a : Fl) : Fl.le a .half = true ↔ classOf a = .empty ∨ classOf a = .unknown := by
  cases a with
  | fin q =>
    simp only [Fl.le, Fl.half, classOf, decide_eq_true_eq]
    rcases lt_trichotomy q (1 / 2) with h | h | h
    · rw [if_pos h]; simpa using h.le
    · rw [if_neg (by rw [h]; exact lt_irrefl _), if_pos h]; simp [h]
    · rw [if_neg (not_lt.2 h.le), if_neg h.ne']; simpa using h
  | _ => simp [Fl.le, Fl.half, classOf]

theorem transition_iff (a b : Fl) : transition a b = true ↔
    (classOf a = .empty ∧ (classOf b = .unknown ∨ classOf b = .filled)) ∨
    (classOf a = .filled ∧ (classOf b = .unknown ∨ classOf b = .empty)) ∨
    (classOf a = .unknown ∧ classOf b ≠ .unknown) := by
  have h1 := lt_half_iff a
  have h2 := half_lt_iff a
  have h3 := eq_half_iff a
  have h4 := half_le_iff b
  have h5 := le_half_iff b
  have h6 := eq_half_iff b
  unfold transition
  cases ha : classOf a <;> cases hb : classOf b <;> simp [ha, hb] at h1 h2 h3 h4 h5 h6 ⊢ <;> simp [h1, h2, h3, h4, h5, h6]

theorem chainDiffers_spec (comp : C → ℕ) (data : Idx → C) (our : ℕ) :
    ∀ l : List ZIdx, (∀ j ∈ l, ∃ k, d.In k ∧ j = toZ k) →
      ∃ b, chainDiffers comp d data our l = some b ∧ (b = true ↔ ∃ k, toZ k ∈ l ∧ comp (data k) ≠ our)
  | [], _ => ⟨false, rfl, by simp⟩
  | j :: js, h => by
    obtain ⟨k, hk, rfl⟩ := h j (by simp)
    obtain ⟨b, hb, hiff⟩ := chainDiffers_spec comp data our js fun j hj => h j (by simp [hj])
    rw [chainDiffers, getImm_toZ _ _ hk]
    dsimp only
    by_cases hc : our ≠ comp (data k)
    · rw [if_pos hc]
      exact ⟨true, rfl, fun _ => ⟨k, by simp, fun h => hc h.symm⟩, fun _ => rfl⟩
    · rw [if_neg hc]
      refine ⟨b, hb, hiff.trans ⟨?_, ?_⟩⟩
      · rintro ⟨k', h1, h2⟩
        exact ⟨k', by simp [h1], h2⟩
      · rintro ⟨k', h1, h2⟩
        rcases List.mem_cons.1 h1 with h1 | h1
        · rw [toZ_inj.1 h1] at h2
          exact absurd (fun h => h2 h.symm) hc
        · exact ⟨k', h1, h2⟩

theorem isComponentSurfaceIndex_toZ (comp : C → ℕ) (data : Idx → C) {i : Idx} (hi : d.In i) :
    ∃ b, isComponentSurfaceIndex comp d data (toZ i) = some (some b) ∧
      (b = true ↔ OnSurface d (fun j => comp (data j)) i) := by
  rw [isComponentSurfaceIndex, if_pos (checkInBounds_toZ.2 hi)]
  have hb : ((toZ i).1 = 0 ∨ (toZ i).2.1 = 0 ∨ (toZ i).2.2 = 0 ∨ (toZ i).1 = (d.nx : ℤ) - 1 ∨ (toZ i).2.1 = (d.ny : ℤ) - 1 ∨
      (toZ i).2.2 = (d.nz : ℤ) - 1) ↔ OnBorder d i := by
    simp only [VGT.toZ, OnBorder]
    omega
  by_cases h : OnBorder d i
  · rw [if_pos (hb.2 h)]
    exact ⟨true, rfl, fun _ => Or.inl h, fun _ => rfl⟩
  · rw [if_neg (fun h' => h (hb.1 h')), getImm_toZ _ _ hi]
    dsimp only
    have hl : ∀ j, j ∈ [((toZ i).1, (toZ i).2.1, (toZ i).2.2 - 1), ((toZ i).1, (toZ i).2.1, (toZ i).2.2 + 1),
        ((toZ i).1, (toZ i).2.1 - 1, (toZ i).2.2), ((toZ i).1, (toZ i).2.1 + 1, (toZ i).2.2),
        ((toZ i).1 - 1, (toZ i).2.1, (toZ i).2.2), ((toZ i).1 + 1, (toZ i).2.1, (toZ i).2.2)] ↔ j ∈ sixNeighbors (toZ i) := by
      intro j
      simp only [sixNeighbors, List.mem_cons, List.not_mem_nil, or_false]
      tauto
    obtain ⟨b, h1, h2⟩ := chainDiffers_spec (d := d) comp data (comp (data i))
      [((toZ i).1, (toZ i).2.1, (toZ i).2.2 - 1), ((toZ i).1, (toZ i).2.1, (toZ i).2.2 + 1),
        ((toZ i).1, (toZ i).2.1 - 1, (toZ i).2.2), ((toZ i).1, (toZ i).2.1 + 1, (toZ i).2.2),
        ((toZ i).1 - 1, (toZ i).2.1, (toZ i).2.2), ((toZ i).1 + 1, (toZ i).2.1, (toZ i).2.2)] (by
      intro j hj
      apply checkInBounds_iff.1
      simp only [OnBorder, Dims.In] at h hi
      unfold checkInBounds
      rw [Bool.and_eq_true, Bool.and_eq_true, Bool.and_eq_true, Bool.and_eq_true, Bool.and_eq_true]
      simp only [decide_eq_true_eq]
      simp only [VGT.toZ, List.mem_cons, List.not_mem_nil, or_false] at hj
      rcases hj with rfl | rfl | rfl | rfl | rfl | rfl <;> dsimp only <;> omega)
    refine ⟨b, by rw [h1]; rfl, h2.trans ⟨?_, ?_⟩⟩
    · rintro ⟨k, hk, hne⟩
      have hadj := six_mem ((hl _).1 hk)
      refine Or.inr ⟨k, ?_, hadj, hne⟩
      clear h1 h2 hne hk hl hb
      simp only [OnBorder, Dims.In, FaceAdj] at h hi hadj ⊢
      rcases hadj with ⟨e, e'⟩ | ⟨e1, e2, e'⟩ | ⟨e1, e2, e'⟩
      · rw [← e]; omega
      · omega
      · omega
    · rintro (h' | ⟨k, hk, hadj, hne⟩)
      · exact absurd h' h
      · exact ⟨k, (hl _).2 (mem_six hadj), hne⟩

theorem countIfDifferent_eq (comp : C → ℕ) (data : Idx → C) (our : ℕ) (j : ZIdx) (n : ℕ) :
    countIfDifferent comp d data our j n = n + countIfDifferent comp d data our j 0 := by
  unfold countIfDifferent
  cases getImm d data j with
  | none => simp
  | some c => by_cases h : comp c ≠ our <;> simp [h]

theorem countIfDifferent_le (comp : C → ℕ) (data : Idx → C) (our : ℕ) (j : ZIdx) :
    countIfDifferent comp d data our j 0 = 0 ∨ (countIfDifferent comp d data our j 0 = 1 ∧
      ∃ k, d.In k ∧ j = toZ k ∧ comp (data k) ≠ our) := by
  unfold countIfDifferent
  cases hg : getImm d data j with
  | none => exact Or.inl rfl
  | some c =>
    have : ∃ k, d.In k ∧ j = toZ k := by
      by_contra hn
      rw [(getImm_none d data).2 hn] at hg
      cases hg
    obtain ⟨k, hk, rfl⟩ := this
    rw [getImm_toZ _ _ hk] at hg
    cases hg
    by_cases h : comp (data k) ≠ our
    · right; exact ⟨by simp [h], k, hk, rfl, h⟩
    · left; simp [h]

theorem countIfDifferent_pos (comp : C → ℕ) (data : Idx → C) (our : ℕ) {k : Idx} (hk : d.In k) (h : comp (data k) ≠ our) :
    countIfDifferent comp d data our (toZ k) 0 = 1 := by
  simp [countIfDifferent, getImm_toZ _ _ hk, h]

/-- The sum of the six increments. -/
theorem candidateCorner_eq (comp : C → ℕ) (data : Idx → C) {i : Idx} (hi : d.In i) :
    candidateCorner comp d data (toZ i) =
      some (decide (2 ≤ ((sixNeighbors (toZ i)).map fun j => countIfDifferent comp d data (comp (data i)) j 0).sum)) := by
  simp only [candidateCorner, getImm_toZ _ _ hi, sixNeighbors, List.map_cons, List.map_nil, List.sum_cons, List.sum_nil]
  rw [countIfDifferent_eq _ _ _ _ (countIfDifferent _ _ _ _ _ (countIfDifferent _ _ _ _ _ (countIfDifferent _ _ _ _ _ _))),
    countIfDifferent_eq _ _ _ _ (countIfDifferent _ _ _ _ _ (countIfDifferent _ _ _ _ _ (countIfDifferent _ _ _ _ _ _))),
    countIfDifferent_eq _ _ _ _ (countIfDifferent _ _ _ _ _ (countIfDifferent _ _ _ _ _ _)),
    countIfDifferent_eq _ _ _ _ (countIfDifferent _ _ _ _ _ (countIfDifferent _ _ _ _ _ _)),
    countIfDifferent_eq _ _ _ _ (countIfDifferent _ _ _ _ _ _)]
  generalize countIfDifferent comp d data (comp (data i)) _ 0 = a
  generalize countIfDifferent comp d data (comp (data i)) _ 0 = b
  generalize countIfDifferent comp d data (comp (data i)) _ 0 = c
  generalize countIfDifferent comp d data (comp (data i)) _ 0 = e
  generalize countIfDifferent comp d data (comp (data i)) _ 0 = f
  generalize countIfDifferent comp d data (comp (data i)) _ 0 = g
  by_cases h : a + b + c + e + f + g ≤ 1
  · rw [if_pos h, decide_eq_false (by omega)]
  · rw [if_neg h, decide_eq_true (by omega)]

/-- The cell is stored under the component. -/
def CellIn (s : Surfaces) (k : ℕ) (i : ZIdx) : Prop := ∃ cells, (k, cells) ∈ s ∧ i ∈ cells

/-- Invariants of the container: keys strictly increasing, no cell twice, no empty surface. -/
structure Surfaces.Ok (s : Surfaces) : Prop where
  keys : s.Pairwise fun a b => a.1 < b.1
  nodup : ∀ p ∈ s, p.2.Nodup
  nonempty : ∀ p ∈ s, p.2 ≠ []

theorem addSurfaceCell_keys (k : ℕ) (i : ZIdx) : ∀ (s : Surfaces) (p : ℕ × List ZIdx), p ∈ addSurfaceCell k i s →
    p.1 = k ∨ ∃ q ∈ s, q.1 = p.1
  | [], p, h => by
    simp only [addSurfaceCell, List.mem_singleton] at h
    rw [h]; exact Or.inl rfl
  | (k', cells) :: rest, p, h => by
    unfold addSurfaceCell at h
    split_ifs at h with h1 h2 h3
    · rcases List.mem_cons.1 h with h | h
      · rw [h]; exact Or.inl rfl
      · exact Or.inr ⟨p, h, rfl⟩
    · exact Or.inr ⟨p, h, rfl⟩
    · rcases List.mem_cons.1 h with h | h
      · rw [h]; exact Or.inl h2.symm
      · exact Or.inr ⟨p, by simp [h], rfl⟩
    · rcases List.mem_cons.1 h with h | h
      · exact Or.inr ⟨p, by simp [h], rfl⟩
      · rcases addSurfaceCell_keys k i rest p h with h | ⟨q, hq, e⟩
        · exact Or.inl h
        · exact Or.inr ⟨q, by simp [hq], e⟩

theorem addSurfaceCell_ok (k : ℕ) (i : ZIdx) : ∀ {s : Surfaces}, s.Ok → (addSurfaceCell k i s).Ok
  | [], _ => ⟨by simp [addSurfaceCell], by simp [addSurfaceCell], by simp [addSurfaceCell]⟩
  | (k', cells) :: rest, h => by
    have hr : Surfaces.Ok rest := ⟨(List.pairwise_cons.1 h.keys).2, fun p hp => h.nodup p (by simp [hp]),
      fun p hp => h.nonempty p (by simp [hp])⟩
    have hlt := (List.pairwise_cons.1 h.keys).1
    unfold addSurfaceCell
    split_ifs with h1 h2 h3
    · refine ⟨List.pairwise_cons.2 ⟨?_, h.keys⟩, ?_, ?_⟩
      · intro p hp
        rcases List.mem_cons.1 hp with hp | hp
        · rw [hp]; exact h1
        · exact lt_trans h1 (hlt p hp)
      · intro p hp
        rcases List.mem_cons.1 hp with hp | hp
        · rw [hp]; simp
        · exact h.nodup p hp
      · intro p hp
        rcases List.mem_cons.1 hp with hp | hp
        · rw [hp]; simp
        · exact h.nonempty p hp
    · exact h
    · refine ⟨List.pairwise_cons.2 ⟨hlt, hr.keys⟩, ?_, ?_⟩
      · intro p hp
        rcases List.mem_cons.1 hp with hp | hp
        · rw [hp]
          have := h.nodup (k', cells) (by simp)
          rw [List.nodup_append]
          refine ⟨this, by simp, ?_⟩
          intro a ha b hb e
          rw [List.mem_singleton] at hb
          exact h3 (by rw [← hb, ← e]; exact ha)
        · exact hr.nodup p hp
      · intro p hp
        rcases List.mem_cons.1 hp with hp | hp
        · rw [hp]; simp
        · exact hr.nonempty p hp
    · have ih := addSurfaceCell_ok k i hr
      refine ⟨List.pairwise_cons.2 ⟨?_, ih.keys⟩, ?_, ?_⟩
      · intro p hp
        rcases addSurfaceCell_keys k i rest p hp with e | ⟨q, hq, e⟩
        · rw [e]; dsimp only; omega
        · rw [← e]; exact hlt q hq
      · intro p hp
        rcases List.mem_cons.1 hp with hp | hp
        · rw [hp]; exact h.nodup _ (by simp)
        · exact ih.nodup p hp
      · intro p hp
        rcases List.mem_cons.1 hp with hp | hp
        · rw [hp]; exact h.nonempty _ (by simp)
        · exact ih.nonempty p hp

theorem cellIn_cons {p : ℕ × List ZIdx} {s : Surfaces} {k : ℕ} {i : ZIdx} :
    CellIn (p :: s) k i ↔ (p.1 = k ∧ i ∈ p.2) ∨ CellIn s k i := by
  unfold CellIn
  constructor
  · rintro ⟨cells, h, hi⟩
    rcases List.mem_cons.1 h with h | h
    · left; rw [← h]; exact ⟨rfl, hi⟩
    · exact Or.inr ⟨cells, h, hi⟩
  · rintro (⟨h, hi⟩ | ⟨cells, h, hi⟩)
    · exact ⟨p.2, by rw [← h]; simp, hi⟩
    · exact ⟨cells, by simp [h], hi⟩

theorem cellIn_add (k : ℕ) (i : ZIdx) {k' : ℕ} {i' : ZIdx} : ∀ {s : Surfaces},
    CellIn (addSurfaceCell k i s) k' i' ↔ (k' = k ∧ i' = i) ∨ CellIn s k' i'
  | [] => by
    simp only [addSurfaceCell, cellIn_cons, List.mem_singleton]
    constructor
    · rintro (⟨h1, h2⟩ | h)
      · exact Or.inl ⟨h1.symm, h2⟩
      · exact Or.inr h
    · rintro (⟨h1, h2⟩ | h)
      · exact Or.inl ⟨h1.symm, h2⟩
      · exact Or.inr h
  | (c, cells) :: rest => by
    unfold addSurfaceCell
    split_ifs with h1 h2 h3
    · simp only [cellIn_cons, List.mem_singleton, eq_comm (a := k)]
    · simp only [cellIn_cons]
      constructor
      · exact Or.inr
      · rintro (⟨e1, e2⟩ | h)
        · exact Or.inl ⟨by rw [e1, h2], by rw [e2]; exact h3⟩
        · exact h
    · simp only [cellIn_cons, List.mem_append, List.mem_singleton]
      constructor
      · rintro (⟨e1, e2 | e2⟩ | h)
        · exact Or.inr (Or.inl ⟨e1, e2⟩)
        · exact Or.inl ⟨by rw [← e1, h2], e2⟩
        · exact Or.inr (Or.inr h)
      · rintro (⟨e1, e2⟩ | ⟨e1, e2⟩ | h)
        · exact Or.inl ⟨by rw [e1, h2], Or.inr e2⟩
        · exact Or.inl ⟨e1, Or.inl e2⟩
        · exact Or.inr h
    · simp only [cellIn_cons, cellIn_add k i (s := rest)]
      tauto

theorem componentAt_toZ (comp : C → ℕ) (data : Idx → C) {i : Idx} (hi : d.In i) : componentAt comp d data (toZ i) = comp (data i) := by
  simp [componentAt, getImm_toZ _ _ hi]

theorem componentAt_out (comp : C → ℕ) (data : Idx → C) {i : ZIdx} (hi : ¬ ∃ j, d.In j ∧ i = toZ j) :
    componentAt comp d data i = -1 := by
  simp [componentAt, (getImm_none d data).2 hi]

theorem extractLoop_spec (comp : C → ℕ) (data : Idx → C) (hc : ∀ i, d.In i → comp (data i) < 2 ^ 32) (test : ZIdx → Option Bool)
    (ht : ∀ i, d.In i → ∃ b, test (toZ i) = some b) :
    ∀ (l : List Idx) (acc : Surfaces), (∀ i ∈ l, d.In i) → acc.Ok →
      ∃ s, extractLoop comp d data test l acc = some s ∧ s.Ok ∧ ∀ k j, CellIn s k j ↔
        CellIn acc k j ∨ ∃ i ∈ l, j = toZ i ∧ comp (data i) = k ∧ test (toZ i) = some true
  | [], acc, _, hok => ⟨acc, rfl, hok, by simp⟩
  | i :: is, acc, hl, hok => by
    have hi := hl i (by simp)
    have hl' : ∀ j ∈ is, d.In j := fun j hj => hl j (by simp [hj])
    obtain ⟨b, hb⟩ := ht i hi
    rw [extractLoop]
    cases b with
    | true =>
      obtain ⟨s, h1, h2, h3⟩ := extractLoop_spec comp data hc test ht is
        (addSurfaceCell (toU32 (componentAt comp d data (toZ i))) (toZ i) acc) hl' (addSurfaceCell_ok _ _ hok)
      simp only [hb]
      refine ⟨s, h1, h2, fun k j => ?_⟩
      rw [h3, cellIn_add, componentAt_toZ _ _ hi, toU32_nat (hc i hi)]
      constructor
      · rintro ((⟨e1, e2⟩ | h) | ⟨i', h4, h5⟩)
        · exact Or.inr ⟨i, by simp, e2, e1.symm, hb⟩
        · exact Or.inl h
        · exact Or.inr ⟨i', by simp [h4], h5⟩
      · rintro (h | ⟨i', h4, h5, h6, h7⟩)
        · exact Or.inl (Or.inr h)
        · rcases List.mem_cons.1 h4 with rfl | h4
          · exact Or.inl (Or.inl ⟨h6.symm, h5⟩)
          · exact Or.inr ⟨i', h4, h5, h6, h7⟩
    | false =>
      obtain ⟨s, h1, h2, h3⟩ := extractLoop_spec comp data hc test ht is acc hl' hok
      simp only [hb]
      refine ⟨s, h1, h2, fun k j => ?_⟩
      rw [h3]
      constructor
      · rintro (h | ⟨i', h4, h5⟩)
        · exact Or.inl h
        · exact Or.inr ⟨i', by simp [h4], h5⟩
      · rintro (h | ⟨i', h4, h5, h6, h7⟩)
        · exact Or.inl h
        · rcases List.mem_cons.1 h4 with rfl | h4
          · rw [hb] at h7; cases h7
          · exact Or.inr ⟨i', h4, h5, h6, h7⟩

/-- The mask asks for the class. -/
def Requested (m : TypeMask) : OccClass → Prop
  | .filled => m.filled = true
  | .empty => m.empty = true
  | .unknown => m.unknown = true
  | .undefined => m.unknown = true

theorem surfaceTest_toZ (occ : C → Fl) (comp : C → ℕ) (data : Idx → C) (m : TypeMask) {i : Idx} (hi : d.In i) :
    ∃ b, surfaceTest occ comp d data m (toZ i) = some b ∧ (b = true ↔ Requested m (classOf (occ (data i)))) := by
  obtain ⟨b, hb, -⟩ := isComponentSurfaceIndex_toZ comp data hi
  have h1 := lt_half_iff (occ (data i))
  have h2 := half_lt_iff (occ (data i))
  simp only [surfaceTest, getImm_toZ _ _ hi, hb, maybeAsBool, Option.map_some, Option.isSome_some]
  cases hc : classOf (occ (data i)) <;> rw [hc] at h1 h2 <;> simp only [reduceCtorEq, iff_false, iff_true] at h1 h2
  · rw [if_neg h2, if_pos h1]
    cases hm : m.empty <;> simp [Requested, hm]
  · rw [if_neg h2, if_neg h1]
    cases hm : m.unknown <;> simp [Requested, hm]
  · rw [if_pos h2]
    cases hm : m.filled <;> simp [Requested, hm]
  · rw [if_neg h2, if_neg h1]
    cases hm : m.unknown <;> simp [Requested, hm]

theorem extractSurfaces_spec (occ : C → Fl) (comp : C → ℕ) (data : Idx → C) (hc : ∀ i, d.In i → comp (data i) < 2 ^ 32) (m : TypeMask) :
    ∃ s, extractSurfaces occ comp d data m = some s ∧ s.Ok ∧
      ∀ k j, CellIn s k j ↔ ∃ i, d.In i ∧ j = toZ i ∧ comp (data i) = k ∧ Requested m (classOf (occ (data i))) := by
  obtain ⟨s, h1, h2, h3⟩ := extractLoop_spec comp data hc (surfaceTest occ comp d data m)
    (fun i hi => (surfaceTest_toZ occ comp data m hi).imp fun _ h => h.1) (allIdx d) [] (fun i hi => mem_allIdx.1 hi)
    ⟨by simp, by simp, by simp⟩
  refine ⟨s, h1, h2, fun k j => (h3 k j).trans ⟨?_, ?_⟩⟩
  · rintro (⟨_, h, _⟩ | ⟨i, h4, h5, h6, h7⟩)
    · cases h
    · obtain ⟨b, hb, hiff⟩ := surfaceTest_toZ occ comp data m (mem_allIdx.1 h4)
      rw [hb] at h7
      cases h7
      exact ⟨i, mem_allIdx.1 h4, h5, h6, hiff.1 rfl⟩
  · rintro ⟨i, h4, h5, h6, h7⟩
    obtain ⟨b, hb, hiff⟩ := surfaceTest_toZ occ comp data m h4
    exact Or.inr ⟨i, mem_allIdx.2 h4, h5, h6, by rw [hb, hiff.2 h7]⟩

end
end VGT
