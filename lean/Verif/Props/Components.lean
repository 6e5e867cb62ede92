import Verif.Lemmas.Components
import Verif.Model.ComponentState

/-!
C21 - C26, C45: connected components, their counts and validity flags, spatial segments.
-/
set_option autoImplicit false

namespace VGT
open VGT.EDT VGT.Spec

theorem sameOccupancyClass_iff (a b : Fl) : sameOccupancyClass a b = true ↔ SameClass a b := by
  unfold sameOccupancyClass SameClass Fl.half
  cases a <;> cases b <;> simp [Fl.lt, Fl.eq]
  rename_i p q
  have h1 := lt_trichotomy (2 : ℚ)⁻¹ p
  have h2 := lt_trichotomy (2 : ℚ)⁻¹ q
  tauto

theorem taggedConnected_iff (across : Bool) (a b : TagCompCell) :
    taggedConnected across a b = true ↔ SameClass a.occ b.occ ∧ (across = true ∨ a.obj = b.obj) := by
  rw [← sameOccupancyClass_iff]
  unfold taggedConnected sameOccupancyClass
  cases across
  · by_cases ho : a.obj = b.obj
    · simp [ho]
    · simp [ho]
  · simp

theorem sameClass_symm {a b : Fl} (h : SameClass a b) : SameClass b a := by
  rcases h with ⟨p, q, h1, h2, h⟩ | ⟨h1, h⟩ | ⟨h1, q, h2, h⟩ | ⟨h1, h⟩ | ⟨h1, q, h2, h⟩
  · exact Or.inl ⟨q, p, h2, h1, by tauto⟩
  · rcases h with h | ⟨q, hq⟩
    · exact Or.inr (Or.inl ⟨h, Or.inl h1⟩)
    · exact Or.inr (Or.inr (Or.inl ⟨h1, q, hq⟩))
  · exact Or.inr (Or.inl ⟨h1, Or.inr ⟨q, h2, h⟩⟩)
  · rcases h with h | ⟨q, hq⟩
    · exact Or.inr (Or.inr (Or.inr (Or.inl ⟨h, Or.inl h1⟩)))
    · exact Or.inr (Or.inr (Or.inr (Or.inr ⟨h1, q, hq⟩)))
  · exact Or.inr (Or.inr (Or.inr (Or.inl ⟨h1, Or.inr ⟨q, h2, h⟩⟩)))

theorem occOps_lawful : occOps.Lawful where
  get_set := fun _ _ => rfl
  set_set := fun _ _ _ => rfl
  active_set := fun _ _ _ => rfl
  conn_set := fun _ _ _ _ _ _ => rfl
  conn_symm := fun _ _ a b => by
    simp only [occOps]
    rw [Bool.eq_iff_iff, sameOccupancyClass_iff, sameOccupancyClass_iff]
    exact ⟨sameClass_symm, sameClass_symm⟩

theorem tagOps_lawful (across : Bool) : (tagOps across).Lawful where
  get_set := fun _ _ => rfl
  set_set := fun _ _ _ => rfl
  active_set := fun _ _ _ => rfl
  conn_set := fun _ _ _ _ _ _ => rfl
  conn_symm := fun _ _ a b => by
    simp only [tagOps]
    rw [Bool.eq_iff_iff, taggedConnected_iff, taggedConnected_iff]
    exact ⟨fun h => ⟨sameClass_symm h.1, h.2.imp id Eq.symm⟩, fun h => ⟨sameClass_symm h.1, h.2.imp id Eq.symm⟩⟩

theorem segOps_lawful {fin : Idx → Bool} {near : Idx → Idx → Bool} (hn : ∀ i j, near i j = near j i) :
    (segOps fin near).Lawful where
  get_set := fun _ _ => rfl
  set_set := fun _ _ _ => rfl
  active_set := fun _ _ _ => rfl
  conn_set := fun _ _ _ _ _ _ => rfl
  conn_symm := fun i j a b => by simp only [segOps, hn i j, eq_comm]

/-- What a component map's cells must look like after labelling `base`: labels are a correct labelling,
everything else is unchanged. -/
def OccLabelled (d : Dims) (base data : Idx → OccCompCell) (n : ℕ) : Prop :=
  (∀ i, (data i).occ = (base i).occ) ∧
  IsLabelling d (fun _ => True) (fun i j => SameClass (base i).occ (base j).occ) (fun i => (data i).comp) n

theorem computeCC_occ (d : Dims) (hN : d.nx * d.ny * d.nz < 2 ^ 32) (data : Idx → OccCompCell) :
    ∃ data' n, computeCC occOps d data = some (data', n) ∧ OccLabelled d data data' n := by
  obtain ⟨data', n, h1, h2, h3, h4⟩ := computeCC_spec occOps_lawful data hN
  refine ⟨data', n, h1, fun i => ?_, ?_⟩
  · by_cases hi : d.In i
    · rw [h3 i hi]; rfl
    · rw [h2 i hi]
  · simpa only [occOps, sameOccupancyClass_iff] using h4

/-- The analogue for the tagged map. -/
def TagLabelled (d : Dims) (across : Bool) (base data : Idx → TagCompCell) (n : ℕ) : Prop :=
  (∀ i, (data i).occ = (base i).occ ∧ (data i).obj = (base i).obj ∧ (data i).seg = (base i).seg) ∧
  IsLabelling d (fun _ => True)
    (fun i j => SameClass (base i).occ (base j).occ ∧ (across = true ∨ (base i).obj = (base j).obj)) (fun i => (data i).comp) n

theorem computeCC_tag (d : Dims) (across : Bool) (hN : d.nx * d.ny * d.nz < 2 ^ 32) (data : Idx → TagCompCell) :
    ∃ data' n, computeCC (tagOps across) d data = some (data', n) ∧ TagLabelled d across data data' n := by
  obtain ⟨data', n, h1, h2, h3, h4⟩ := computeCC_spec (tagOps_lawful across) data hN
  refine ⟨data', n, h1, fun i => ?_, ?_⟩
  · by_cases hi : d.In i
    · rw [h3 i hi]; exact ⟨rfl, rfl, rfl⟩
    · rw [h2 i hi]; exact ⟨rfl, rfl, rfl⟩
  · simpa only [tagOps, taggedConnected_iff] using h4

/-! ### C21 -/

/-- C21. `OccupancyComponentMap::UpdateConnectedComponents` on a map with invalid components: it finishes,
and two cells carry the same label iff they are joined by a path of face-adjacent cells of the same
occupancy class. -/
theorem C21_components_are_classes (d : Dims) (hN : d.nx * d.ny * d.nz < 2 ^ 32) (s : OccMapSt) (hv : s.valid = false) :
    ∃ s' n, s.update d = some (s', n) ∧ ∀ i j, d.In i → d.In j →
      ((s'.data i).comp = (s'.data j).comp ↔
        Joined d (fun _ => True) (fun a b => SameClass (s.data a).occ (s.data b).occ) i j) := by
  obtain ⟨data', n, h, _, hl⟩ := computeCC_occ d hN s.data
  refine ⟨⟨data', n, true⟩, n, by simp [OccMapSt.update, hv, h], fun i j hi hj => hl.same i j hi hj trivial trivial⟩

/-- C21 for the tagged map, both modes. -/
theorem C21_tagged_components_are_classes (d : Dims) (hN : d.nx * d.ny * d.nz < 2 ^ 32) (s : TagMapSt) (hv : s.valid = false)
    (across : Bool) :
    ∃ s' n, s.update d across = some (s', n) ∧ ∀ i j, d.In i → d.In j →
      ((s'.data i).comp = (s'.data j).comp ↔ Joined d (fun _ => True) (fun a b =>
        SameClass (s.data a).occ (s.data b).occ ∧ (across = true ∨ (s.data a).obj = (s.data b).obj)) i j) := by
  obtain ⟨data', n, h, _, hl⟩ := computeCC_tag d across hN s.data
  exact ⟨_, n, by simp only [TagMapSt.update, hv, h]; rfl, fun i j hi hj => hl.same i j hi hj trivial trivial⟩

/-- Example: a 3×1×2 map, one filled and one unknown cell. -/
def exOcc : Idx → OccCompCell := fun i =>
  if i = (1, 0, 0) then ⟨.fin 1, 9⟩ else if i = (1, 0, 1) then ⟨.fin (1 / 2), 0⟩ else ⟨.fin 0, 3⟩
def exD : Dims := ⟨3, 1, 2⟩

/-- Concrete case: the filled and the unknown cell separate two empty components, so there are four, in scan
order; stale input labels (9 and 3) are ignored. -/
example : ((OccMapSt.init exOcc).update exD).map (fun r => (r.2, (allIdx exD).map fun i => (r.1.data i).comp)) =
    some (4, [1, 1, 2, 3, 4, 4]) := by decide +kernel

example : exD.nx * exD.ny * exD.nz < 2 ^ 32 ∧ (OccMapSt.init exOcc).valid = false := by decide

/-- Concrete case: an empty path of length 1 joins two different cells. -/
example : Joined exD (fun _ => True) (fun a b => SameClass (exOcc a).occ (exOcc b).occ) (0, 0, 0) (0, 0, 1) := by
  refine Relation.ReflTransGen.single ⟨by decide, by decide, trivial, trivial, ?_, ?_⟩
  · right; right; simp
  · left; exact ⟨0, 0, by simp [exOcc], by simp [exOcc], by norm_num⟩

/-! ### C22 -/

/-- C22. Labels are `1 .. n` without gaps, `n` is returned and reported, labels are numbered in scan order of
each component's first cell. -/
theorem C22_labels_contiguous_and_ordered (d : Dims) (hN : d.nx * d.ny * d.nz < 2 ^ 32) (s : OccMapSt) (hv : s.valid = false) :
    ∃ s' n, s.update d = some (s', n) ∧ s'.numComponents = some n ∧
      (∀ i, d.In i → 1 ≤ (s'.data i).comp ∧ (s'.data i).comp ≤ n) ∧
      ∀ l, 1 ≤ l → l ≤ n → ∃ i, d.In i ∧ (s'.data i).comp = l ∧ ∀ j, d.In j → l ≤ (s'.data j).comp → ScanLE i j := by
  obtain ⟨data', n, h, _, hl⟩ := computeCC_occ d hN s.data
  refine ⟨⟨data', n, true⟩, n, by simp [OccMapSt.update, hv, h], rfl, fun i hi => hl.range i hi trivial, fun l h1 h2 => ?_⟩
  obtain ⟨i, a, _, c, e⟩ := hl.order l h1 h2
  exact ⟨i, a, c, e⟩

/-- C22 for the tagged map. -/
theorem C22_tagged_labels_contiguous_and_ordered (d : Dims) (hN : d.nx * d.ny * d.nz < 2 ^ 32) (s : TagMapSt)
    (hv : s.valid = false) (across : Bool) :
    ∃ s' n, s.update d across = some (s', n) ∧ s'.numComponents = some n ∧
      (∀ i, d.In i → 1 ≤ (s'.data i).comp ∧ (s'.data i).comp ≤ n) ∧
      ∀ l, 1 ≤ l → l ≤ n → ∃ i, d.In i ∧ (s'.data i).comp = l ∧ ∀ j, d.In j → l ≤ (s'.data j).comp → ScanLE i j := by
  obtain ⟨data', n, h, _, hl⟩ := computeCC_tag d across hN s.data
  refine ⟨_, n, by simp only [TagMapSt.update, hv, h]; rfl, rfl, fun i hi => hl.range i hi trivial, fun l h1 h2 => ?_⟩
  obtain ⟨i, a, _, c, e⟩ := hl.order l h1 h2
  exact ⟨i, a, c, e⟩

/-- Two correct labellings of the same data are equal, so the specification determines the labels. -/
theorem labelling_unique {d : Dims} {P : Idx → Prop} {R : Idx → Idx → Prop} {l l' : Idx → ℕ} {n n' : ℕ}
    (h : IsLabelling d P R l n) (h' : IsLabelling d P R l' n') : (∀ i, d.In i → l i = l' i) ∧ n = n' := by
  -- labels below k agree, by strong induction
  have scan_total : ∀ i j : Idx, ScanLE i j → ScanLE j i → i = j := by
    rintro ⟨x, y, z⟩ ⟨x', y', z'⟩ h1 h2
    simp only [ScanLE] at h1 h2
    simp only [Prod.mk.injEq]
    omega
  have key : ∀ {l l' : Idx → ℕ} {n n' : ℕ}, IsLabelling d P R l n → IsLabelling d P R l' n' →
      ∀ k, (∀ i, d.In i → P i → l i < k → l i = l' i) ∧ (∀ i, d.In i → P i → l' i < k → l i = l' i) := by
    intro l l' n n' h h' k
    induction k with
    | zero => exact ⟨fun i _ _ hh => absurd hh (by omega), fun i _ _ hh => absurd hh (by omega)⟩
    | succ k ih =>
      -- the class with label k in `l` and the class with label k in `l'` have the same first cell
      have aux : ∀ {l l' : Idx → ℕ} {n n' : ℕ}, IsLabelling d P R l n → IsLabelling d P R l' n' →
          (∀ i, d.In i → P i → l i < k → l i = l' i) → (∀ i, d.In i → P i → l' i < k → l i = l' i) →
          ∀ i, d.In i → P i → l i = k → l' i = k := by
        intro l l' n n' h h' ih1 ih2 i hi hp hk
        have hr := h.range i hi hp
        have hr' := h'.range i hi hp
        by_contra hne
        have hgt : k < l' i := by
          rcases Nat.lt_or_ge (l' i) k with hlt | hge
          · have := ih2 i hi hp hlt; omega
          · omega
        -- first cell a of class k in l, first cell b of class k in l'
        obtain ⟨a, a1, a2, a3, a4⟩ := h.order k (by omega) (by omega)
        obtain ⟨b, b1, b2, b3, b4⟩ := h'.order k (by omega) (by omega)
        have ha' : l' a = l' i := (h'.same a i a1 hi a2 hp).2 ((h.same a i a1 hi a2 hp).1 (by omega))
        have hba : ScanLE b a := b4 a a1 (by omega)
        have hlb : k ≤ l b := by
          rcases Nat.lt_or_ge (l b) k with hlt | hge
          · have := ih1 b b1 b2 hlt; omega
          · exact hge
        have hab : ScanLE a b := a4 b b1 hlb
        have := scan_total a b hab hba
        subst this
        omega
      refine ⟨fun i hi hp hk => ?_, fun i hi hp hk => ?_⟩
      · rcases Nat.lt_or_ge (l i) k with hlt | hge
        · exact ih.1 i hi hp hlt
        · have hk' : l i = k := by omega
          rw [aux h h' ih.1 ih.2 i hi hp hk', hk']
      · rcases Nat.lt_or_ge (l' i) k with hlt | hge
        · exact ih.2 i hi hp hlt
        · have hk' : l' i = k := by omega
          rw [aux h' h (fun i a b c => (ih.2 i a b c).symm) (fun i a b c => (ih.1 i a b c).symm) i hi hp hk', hk']
  have heq : ∀ i, d.In i → l i = l' i := by
    intro i hi
    by_cases hp : P i
    · exact (key h h' (l i + 1)).1 i hi hp (by omega)
    · rw [h.zero i hi hp, h'.zero i hi hp]
  refine ⟨heq, le_antisymm ?_ ?_⟩
  · rcases Nat.eq_zero_or_pos n with h0 | h0
    · omega
    · obtain ⟨i, a, b, c⟩ := h.onto n h0 le_rfl
      have := h'.range i a b
      rw [← heq i a] at this
      omega
  · rcases Nat.eq_zero_or_pos n' with h0 | h0
    · omega
    · obtain ⟨i, a, b, c⟩ := h'.onto n' h0 le_rfl
      have := h.range i a b
      rw [heq i a] at this
      omega

/-! ### C23 -/

/-- C23. The labels and the count depend only on the occupancies (not on earlier labels), and occupancies are
unchanged. -/
theorem C23_depends_only_on_occupancy (d : Dims) (hN : d.nx * d.ny * d.nz < 2 ^ 32) (s t : OccMapSt)
    (hs : s.valid = false) (ht : t.valid = false) (hsame : ∀ i, d.In i → (s.data i).occ = (t.data i).occ) :
    ∃ s' t' n, s.update d = some (s', n) ∧ t.update d = some (t', n) ∧
      ∀ i, d.In i → (s'.data i).comp = (t'.data i).comp ∧ (s'.data i).occ = (s.data i).occ := by
  obtain ⟨s', n, h1, ho1, hl1⟩ := computeCC_occ d hN s.data
  obtain ⟨t', m, h2, ho2, hl2⟩ := computeCC_occ d hN t.data
  have hl2' : IsLabelling d (fun _ => True) (fun i j => SameClass (s.data i).occ (s.data j).occ) (fun i => (t' i).comp) m := by
    have hj : ∀ i j, Joined d (fun _ => True) (fun i j => SameClass (s.data i).occ (s.data j).occ) i j ↔
        Joined d (fun _ => True) (fun i j => SameClass (t.data i).occ (t.data j).occ) i j := by
      intro i j
      constructor
      · refine Relation.ReflTransGen.mono (fun a b hab => ?_) i j
        obtain ⟨h1, h2, h3, h4, h5, h6⟩ := hab
        exact ⟨h1, h2, h3, h4, h5, by beta_reduce; rw [← hsame a h1, ← hsame b h2]; exact h6⟩
      · refine Relation.ReflTransGen.mono (fun a b hab => ?_) i j
        obtain ⟨h1, h2, h3, h4, h5, h6⟩ := hab
        exact ⟨h1, h2, h3, h4, h5, by beta_reduce; rw [hsame a h1, hsame b h2]; exact h6⟩
    exact { hl2 with same := fun i j a b c e => (hl2.same i j a b c e).trans (hj i j).symm }
  obtain ⟨he, hn⟩ := labelling_unique hl1 hl2'
  subst hn
  exact ⟨⟨s', n, true⟩, ⟨t', n, true⟩, n, by simp [OccMapSt.update, hs, h1], by simp [OccMapSt.update, ht, h2],
    fun i hi => ⟨he i hi, ho1 i⟩⟩

/-- C23 for the tagged map: the result depends only on occupancies and object ids. -/
theorem C23_tagged_depends_only_on_cells (d : Dims) (hN : d.nx * d.ny * d.nz < 2 ^ 32) (s t : TagMapSt) (across : Bool)
    (hs : s.valid = false) (ht : t.valid = false)
    (hsame : ∀ i, d.In i → (s.data i).occ = (t.data i).occ ∧ (s.data i).obj = (t.data i).obj) :
    ∃ s' t' n, s.update d across = some (s', n) ∧ t.update d across = some (t', n) ∧
      ∀ i, d.In i → (s'.data i).comp = (t'.data i).comp ∧ (s'.data i).occ = (s.data i).occ ∧
        (s'.data i).obj = (s.data i).obj := by
  obtain ⟨s', n, h1, ho1, hl1⟩ := computeCC_tag d across hN s.data
  obtain ⟨t', m, h2, ho2, hl2⟩ := computeCC_tag d across hN t.data
  have hl2' : IsLabelling d (fun _ => True) (fun i j => SameClass (s.data i).occ (s.data j).occ ∧
      (across = true ∨ (s.data i).obj = (s.data j).obj)) (fun i => (t' i).comp) m := by
    refine { hl2 with same := fun i j a b c e => (hl2.same i j a b c e).trans ⟨?_, ?_⟩ }
    · refine Relation.ReflTransGen.mono (fun a b hab => ?_) i j
      obtain ⟨h1, h2, h3, h4, h5, h6⟩ := hab
      refine ⟨h1, h2, h3, h4, h5, ?_⟩
      beta_reduce
      rw [(hsame a h1).1, (hsame b h2).1, (hsame a h1).2, (hsame b h2).2]; exact h6
    · refine Relation.ReflTransGen.mono (fun a b hab => ?_) i j
      obtain ⟨h1, h2, h3, h4, h5, h6⟩ := hab
      refine ⟨h1, h2, h3, h4, h5, ?_⟩
      beta_reduce
      rw [← (hsame a h1).1, ← (hsame b h2).1, ← (hsame a h1).2, ← (hsame b h2).2]; exact h6
  obtain ⟨he, hn⟩ := labelling_unique hl1 hl2'
  subst hn
  refine ⟨_, _, n, by simp only [TagMapSt.update, hs, h1]; rfl, by simp only [TagMapSt.update, ht, h2]; rfl,
    fun i hi => ⟨he i hi, (ho1 i).1, (ho1 i).2.1⟩⟩

/-- Concrete case: two maps that differ in labels only. -/
example : ((OccMapSt.init exOcc).update exD).map (fun r => (r.2, (allIdx exD).map fun i => (r.1.data i).comp)) =
    ((OccMapSt.init fun i => { exOcc i with comp := i.1 }).update exD).map
      (fun r => (r.2, (allIdx exD).map fun i => (r.1.data i).comp)) := by decide +kernel

/-- C23. Repeating the update changes nothing. -/
theorem C23_repeat_is_identity (d : Dims) (s s' : OccMapSt) (n : ℕ) (h : s.update d = some (s', n)) :
    s'.update d = some (s', n) := by
  unfold OccMapSt.update at h
  split at h
  · cases h; simp_all [OccMapSt.update]
  · split at h
    · cases h
    · cases h; simp [OccMapSt.update]

/-! ### C24 -/

/-- `s` carries the labels and the count of its own occupancies. -/
def OccUpToDate (d : Dims) (s : OccMapSt) : Prop :=
  IsLabelling d (fun _ => True) (fun i j => SameClass (s.data i).occ (s.data j).occ) (fun i => (s.data i).comp) s.num

theorem occ_update_ok (d : Dims) (hN : d.nx * d.ny * d.nz < 2 ^ 32) (s : OccMapSt) (hs : s.valid = true → OccUpToDate d s) :
    ∃ s' n, s.update d = some (s', n) ∧ s'.valid = true ∧ s'.num = n ∧ OccUpToDate d s' := by
  by_cases hv : s.valid = true
  · exact ⟨s, s.num, by simp [OccMapSt.update, hv], hv, rfl, hs hv⟩
  · obtain ⟨data', n, h, ho, hl⟩ := computeCC_occ d hN s.data
    refine ⟨⟨data', n, true⟩, n, by simp [OccMapSt.update, hv, h], rfl, rfl, ?_⟩
    simpa only [OccUpToDate, ho] using hl

/-- C24. In every history of plain operations (no forcing to valid, no write through a stale reference) from
a new map nothing throws, and whenever `AreComponentsValid()` holds the stored labels and
`NumConnectedComponents()` are those of the current occupancies. -/
theorem C24_valid_flag_never_stale (d : Dims) (hN : d.nx * d.ny * d.nz < 2 ^ 32) (ops : List OccOp)
    (hops : ∀ o ∈ ops, o.Plain) (data : Idx → OccCompCell) :
    ∃ s, (OccMapSt.init data).run d ops = some s ∧
      (s.valid = true → s.numComponents = some s.num ∧ OccUpToDate d s) ∧
      (s.valid = false → s.numComponents = none) := by
  have key : ∀ (ops : List OccOp) (s : OccMapSt), (∀ o ∈ ops, o.Plain) → (s.valid = true → OccUpToDate d s) →
      ∃ s', s.run d ops = some s' ∧ (s'.valid = true → OccUpToDate d s') := by
    intro ops
    induction ops with
    | nil => exact fun s _ h => ⟨s, rfl, h⟩
    | cons o os ih =>
      intro s hp hs
      have hstep : ∃ s1, s.step d o = some s1 ∧ (s1.valid = true → OccUpToDate d s1) := by
        cases o with
        | access i f =>
          simp only [OccMapSt.step]
          split
          · exact ⟨_, rfl, by simp⟩
          · exact ⟨_, rfl, hs⟩
        | raw data => exact ⟨_, rfl, by simp⟩
        | update =>
          obtain ⟨s', n, h1, _, _, h4⟩ := occ_update_ok d hN s hs
          exact ⟨s', by simp [OccMapSt.step, h1], fun _ => h4⟩
        | forceInvalid => exact ⟨_, rfl, by simp⟩
        | forceValid => exact (hp .forceValid (by simp)).elim
        | staleWrite i f => exact (hp (.staleWrite i f) (by simp)).elim
      obtain ⟨s1, h1, h2⟩ := hstep
      obtain ⟨s', h3, h4⟩ := ih s1 (fun o ho => hp o (by simp [ho])) h2
      exact ⟨s', by simp [OccMapSt.run, h1, h3], h4⟩
  obtain ⟨s, h1, h2⟩ := key ops (OccMapSt.init data) hops (by simp [OccMapSt.init])
  exact ⟨s, h1, fun hv => ⟨by simp [OccMapSt.numComponents, hv], h2 hv⟩, fun hv => by simp [OccMapSt.numComponents, hv]⟩

/-- Concrete history: update, change a cell, and read; then update again. -/
example : ((OccMapSt.init exOcc).run exD [.update, .access (1, 0, 0) fun c => { c with occ := .fin 0 }]).map
      (fun s => (s.valid, s.numComponents)) = some (false, none) ∧
    ((OccMapSt.init exOcc).run exD [.update, .access (1, 0, 0) (fun c => { c with occ := .fin 0 }), .update]).map
      (fun s => (s.valid, s.numComponents, (allIdx exD).map fun i => (s.data i).comp)) =
        some (true, some 2, [1, 1, 1, 2, 1, 1]) := by decide +kernel

/-- The restriction on stale references is needed: after such a write the flag is still true although the
labels are those of the old occupancies. -/
theorem C24_stale_reference_breaks_flag : ∃ s, (OccMapSt.init exOcc).run exD
      [.update, .staleWrite (1, 0, 0) fun c => { c with occ := .fin 0 }] = some s ∧ s.valid = true ∧ ¬ OccUpToDate exD s := by
  have h : ((OccMapSt.init exOcc).run exD [.update, .staleWrite (1, 0, 0) fun c => { c with occ := .fin 0 }]).map
      (fun s => (s.valid, s.num, (allIdx exD).map fun i => s.data i)) = some (true, 4,
        [⟨.fin 0, 1⟩, ⟨.fin 0, 1⟩, ⟨.fin 0, 2⟩, ⟨.fin (1/2), 3⟩, ⟨.fin 0, 4⟩, ⟨.fin 0, 4⟩]) := by decide +kernel
  generalize hs : (OccMapSt.init exOcc).run exD [.update, .staleWrite (1, 0, 0) fun c => { c with occ := .fin 0 }] = r at h
  cases r with
  | none => simp at h
  | some s =>
    simp only [Option.map_some, Option.some.injEq, Prod.mk.injEq] at h
    obtain ⟨hv, hn, hc⟩ := h
    refine ⟨s, rfl, hv, fun hu => ?_⟩
    simp only [allIdx, exD, List.range, List.range.loop, List.flatMap_cons, List.map_cons, List.map_nil, List.flatMap_nil,
      List.cons_append, List.nil_append, List.append_nil, List.cons.injEq, and_true] at hc
    obtain ⟨h1, _, h3, _⟩ := hc
    have hj := (hu.same (0, 0, 0) (1, 0, 0) (by decide) (by decide) trivial trivial).2 (Relation.ReflTransGen.single
      ⟨by decide, by decide, trivial, trivial, by simp [FaceAdj], by
        left; exact ⟨0, 0, by simp [h1], by simp [h3], by norm_num⟩⟩)
    simp only [h1, h3] at hj
    omega

/-! ### C25 -/

/-- C25. Fails in general: on two adjacent filled cells of different objects `UpdateConnectedComponents(false)`
followed by `UpdateConnectedComponents(true)` answers 2, while the mode asked for has 1 component. -/
theorem C25_mode_switch_returns_stale_answer : ∃ (d : Dims) (data : Idx → TagCompCell) (s : TagMapSt),
    (TagMapSt.init data).run d [.update false] = some s ∧
    (s.update d true).map Prod.snd = some 2 ∧
    ((TagMapSt.init data).update d true).map Prod.snd = some 1 := by
  refine ⟨⟨2, 1, 1⟩, fun i => ⟨.fin 1, i.1 + 1, 0, 0⟩, ?_⟩
  have h : ((TagMapSt.init fun i => ⟨.fin 1, i.1 + 1, 0, 0⟩).run ⟨2, 1, 1⟩ [.update false]).map
      (fun s => (s.update ⟨2, 1, 1⟩ true).map Prod.snd) = some (some 2) := by decide +kernel
  generalize (TagMapSt.init fun i => ⟨.fin 1, i.1 + 1, 0, 0⟩).run ⟨2, 1, 1⟩ [.update false] = r at h
  cases r with
  | none => simp at h
  | some s => exact ⟨s, rfl, by simpa using h, by decide +kernel⟩

/-- C25 (partial: only when the components are invalid at the time of the call, i.e. after any mutable access
or `ForceComponentsToBeInvalid()`; missing is the answer for a mode different from the cached one). -/
theorem C25_update_answers_for_mode_partial (d : Dims) (hN : d.nx * d.ny * d.nz < 2 ^ 32) (s : TagMapSt) (hv : s.valid = false)
    (across : Bool) :
    ∃ s' n, s.update d across = some (s', n) ∧ s'.valid = true ∧ s'.num = n ∧ TagLabelled d across s.data s'.data n := by
  obtain ⟨data', n, h, hl⟩ := computeCC_tag d across hN s.data
  exact ⟨_, n, by simp only [TagMapSt.update, hv, h]; rfl, rfl, rfl, hl⟩

/-- C25 (partial). In every history of plain operations the cached answer is the right one for one of the two
modes; so `UpdateConnectedComponents(b)` never returns anything but the answer of mode `b` or of the mode that
was asked for last. -/
theorem C25_cached_answer_is_of_some_mode_partial (d : Dims) (hN : d.nx * d.ny * d.nz < 2 ^ 32) (ops : List TagOp)
    (hnear : ∀ fin near, TagOp.segments fin near ∈ ops → ∀ v i j, near v i j = near v j i) (data : Idx → TagCompCell) :
    ∃ s, (TagMapSt.init data).run d ops = some s ∧
      (s.valid = true → s.numComponents = some s.num ∧ ∃ across, TagLabelled d across s.data s.data s.num) ∧
      (s.valid = false → s.numComponents = none) := by
  have key : ∀ (ops : List TagOp) (s : TagMapSt),
      (∀ fin near, TagOp.segments fin near ∈ ops → ∀ v i j, near v i j = near v j i) →
      (s.valid = true → ∃ across, TagLabelled d across s.data s.data s.num) →
      ∃ s', s.run d ops = some s' ∧ (s'.valid = true → ∃ across, TagLabelled d across s'.data s'.data s'.num) := by
    intro ops
    induction ops with
    | nil => exact fun s _ h => ⟨s, rfl, h⟩
    | cons o os ih =>
      intro s hn hs
      have hstep : ∃ s1, s.step d o = some s1 ∧ (s1.valid = true → ∃ across, TagLabelled d across s1.data s1.data s1.num) := by
        cases o with
        | access i f =>
          simp only [TagMapSt.step]
          split
          · exact ⟨_, rfl, by simp⟩
          · exact ⟨_, rfl, hs⟩
        | raw data => exact ⟨_, rfl, by simp⟩
        | update across =>
          by_cases hv : s.valid = true
          · exact ⟨s, by simp [TagMapSt.step, TagMapSt.update, hv], hs⟩
          · obtain ⟨s', n, h1, h2, h3, h4⟩ := C25_update_answers_for_mode_partial d hN s (by simpa using hv) across
            refine ⟨s', by simp [TagMapSt.step, h1], fun _ => ⟨across, fun i => ⟨rfl, rfl, rfl⟩, ?_⟩⟩
            rw [h3]
            simpa only [fun i => (h4.1 i).1, fun i => (h4.1 i).2.1] using h4.2
        | segments fin near =>
          by_cases hv : s.segValid = true
          · exact ⟨s, by simp [TagMapSt.step, TagMapSt.updateSegments, hv], hs⟩
          · obtain ⟨data', n, h1, h2, h3, h4⟩ := computeCC_spec (ops := segOps (fin fun i => ((s.data i).occ, (s.data i).obj))
              (near fun i => ((s.data i).occ, (s.data i).obj))) (segOps_lawful fun i j => hn fin near (by simp) _ i j) s.data hN
            refine ⟨_, by simp only [TagMapSt.step, TagMapSt.updateSegments, hv, h1]; rfl, fun hval => ?_⟩
            have hempty : (allIdx d).isEmpty = true := by
              by_contra hne
              simp [flagAfterMarking, hne] at hval
            have hnone : ∀ i, ¬ d.In i := by
              intro i hi
              have := mem_allIdx.2 hi
              rw [List.isEmpty_iff.1 hempty] at this
              cases this
            have hval' : s.valid = true := by simpa [flagAfterMarking, hempty] using hval
            have hdd : data' = s.data := funext fun i => h2 i (hnone i)
            obtain ⟨across, hh⟩ := hs hval'
            exact ⟨across, by simpa [hdd] using hh⟩
        | forceInvalid => exact ⟨_, rfl, by simp⟩
        | forceSegInvalid => exact ⟨_, rfl, hs⟩
      obtain ⟨s1, h1, h2⟩ := hstep
      obtain ⟨s', h3, h4⟩ := ih s1 (fun f n h => hn f n (by simp [h])) h2
      exact ⟨s', by simp [TagMapSt.run, h1, h3], h4⟩
  obtain ⟨s, h1, h2⟩ := key ops (TagMapSt.init data) hnear (by simp [TagMapSt.init])
  exact ⟨s, h1, fun hv => ⟨by simp [TagMapSt.numComponents, hv], h2 hv⟩, fun hv => by simp [TagMapSt.numComponents, hv]⟩

/-- Concrete case: both modes from an invalid state. -/
example : ((TagMapSt.init fun i => ⟨.fin 1, i.1 + 1, 0, 0⟩).update ⟨2, 1, 1⟩ false).map Prod.snd = some 2 ∧
    ((TagMapSt.init fun i => ⟨.fin 1, i.1 + 1, 0, 0⟩).update ⟨2, 1, 1⟩ true).map Prod.snd = some 1 := by decide +kernel

/-! ### C26 -/

/-- C26. Fails: on every map with at least one cell, updating the spatial segments leaves the components
marked invalid, and updating the components leaves the segments marked invalid, so that both are never valid
after two updates. -/
theorem C26_updates_invalidate_each_other (d : Dims) (hN : d.nx * d.ny * d.nz < 2 ^ 32) (hcell : ∃ i, d.In i) (s : TagMapSt) :
    (∀ fin near, (∀ v i j, near v i j = near v j i) → s.segValid = false →
      ∃ s' n, s.updateSegments d fin near = some (s', n) ∧ s'.segValid = true ∧ s'.valid = false) ∧
    (∀ across, s.valid = false → ∃ s' n, s.update d across = some (s', n) ∧ s'.valid = true ∧ s'.segValid = false) := by
  obtain ⟨i, hi⟩ := hcell
  have hne : (allIdx d).isEmpty = false := by
    cases h : allIdx d with
    | nil => have := mem_allIdx.2 hi; rw [h] at this; cases this
    | cons => rfl
  constructor
  · intro fin near hn hv
    obtain ⟨data', n, h1, _⟩ := computeCC_spec (ops := segOps (fin fun i => ((s.data i).occ, (s.data i).obj))
              (near fun i => ((s.data i).occ, (s.data i).obj))) (segOps_lawful fun i j => hn _ i j) s.data hN
    exact ⟨_, n, by simp only [TagMapSt.updateSegments, hv, h1]; rfl, rfl, by simp [flagAfterMarking, hne]⟩
  · intro across hv
    obtain ⟨data', n, h1, _⟩ := computeCC_tag d across hN s.data
    exact ⟨_, n, by simp only [TagMapSt.update, hv, h1]; rfl, rfl, by simp [flagAfterMarking, hne]⟩

/-- C26 (partial: the stored labels and counts stay right; missing is that the flag says so). Neither update
changes occupancy, object id, or the labels and count of the other one. -/
theorem C26_labels_survive_partial (d : Dims) (hN : d.nx * d.ny * d.nz < 2 ^ 32) (s : TagMapSt) :
    (∀ fin near, (∀ v i j, near v i j = near v j i) →
      ∃ s' n, s.updateSegments d fin near = some (s', n) ∧ s'.num = s.num ∧
        ∀ i, (s'.data i).occ = (s.data i).occ ∧ (s'.data i).obj = (s.data i).obj ∧ (s'.data i).comp = (s.data i).comp) ∧
    (∀ across, ∃ s' n, s.update d across = some (s', n) ∧ s'.numSeg = s.numSeg ∧
        ∀ i, (s'.data i).occ = (s.data i).occ ∧ (s'.data i).obj = (s.data i).obj ∧ (s'.data i).seg = (s.data i).seg) := by
  constructor
  · intro fin near hn
    by_cases hv : s.segValid = true
    · exact ⟨s, s.numSeg, by simp [TagMapSt.updateSegments, hv], rfl, fun i => ⟨rfl, rfl, rfl⟩⟩
    obtain ⟨data', n, h1, h2, h3, _⟩ := computeCC_spec (ops := segOps (fin fun i => ((s.data i).occ, (s.data i).obj))
              (near fun i => ((s.data i).occ, (s.data i).obj))) (segOps_lawful fun i j => hn _ i j) s.data hN
    refine ⟨{ s with data := data', numSeg := n, segValid := true, valid := flagAfterMarking d s.valid }, n,
      by simp [TagMapSt.updateSegments, hv, h1], rfl, fun i => ?_⟩
    by_cases hi : d.In i
    · have h3' : data' i = { (s.data i) with seg := (data' i).seg } := h3 i hi
      show (data' i).occ = _ ∧ (data' i).obj = _ ∧ (data' i).comp = _
      rw [h3']
      exact ⟨rfl, rfl, rfl⟩
    · simp only [h2 i hi]; trivial
  · intro across
    by_cases hv : s.valid = true
    · exact ⟨s, s.num, by simp [TagMapSt.update, hv], rfl, fun i => ⟨rfl, rfl, rfl⟩⟩
    obtain ⟨data', n, h1, h2, _⟩ := computeCC_tag d across hN s.data
    exact ⟨{ s with data := data', num := n, valid := true, segValid := flagAfterMarking d s.segValid }, n,
      by simp [TagMapSt.update, hv, h1], rfl, h2⟩

/-- Concrete case: on a 2×1×1 map both orders of updates leave one flag false. -/
example : ((TagMapSt.init fun i => ⟨.fin 0, i.1, 0, 0⟩).run ⟨2, 1, 1⟩
      [.update true, .segments (fun _ _ => true) (fun _ _ _ => true)]).map (fun s => (s.valid, s.segValid)) = some (false, true) ∧
    ((TagMapSt.init fun i => ⟨.fin 0, i.1, 0, 0⟩).run ⟨2, 1, 1⟩
      [.segments (fun _ _ => true) (fun _ _ _ => true), .update true]).map (fun s => (s.valid, s.segValid)) = some (true, false) := by
  decide +kernel

/-! ### C45 -/

/-- C45. `UpdateSpatialSegments` on a map with invalid segments: it finishes; cells that take part are those
that are free or belong to a named object, with finite extremum; all other cells get segment 0; two cells that
take part get the same segment iff they are joined by face-adjacent participating cells of the same object with
nearby extrema; segments are `1 .. n` in scan order, and `n` is returned. -/
theorem C45_spatial_segments (d : Dims) (hN : d.nx * d.ny * d.nz < 2 ^ 32) (s : TagMapSt) (hv : s.segValid = false)
    (fin : (Idx → Fl × Nat) → Idx → Bool) (near : (Idx → Fl × Nat) → Idx → Idx → Bool)
    (hn : ∀ v i j, near v i j = near v j i) :
    ∃ s' n, s.updateSegments d fin near = some (s', n) ∧ s'.numSegments = some n ∧
      IsLabelling d
        (fun i => ((s.data i).occ = .ninf ∨ (∃ q : ℚ, (s.data i).occ = .fin q ∧ q < 1 / 2) ∨ 0 < (s.data i).obj) ∧
          fin (fun i => ((s.data i).occ, (s.data i).obj)) i = true)
        (fun i j => (s.data i).obj = (s.data j).obj ∧ near (fun i => ((s.data i).occ, (s.data i).obj)) i j = true)
        (fun i => (s'.data i).seg) n := by
  obtain ⟨data', n, h1, h2, h3, h4⟩ := computeCC_spec (ops := segOps (fin fun i => ((s.data i).occ, (s.data i).obj))
              (near fun i => ((s.data i).occ, (s.data i).obj))) (segOps_lawful fun i j => hn _ i j) s.data hN
  refine ⟨_, n, by simp only [TagMapSt.updateSegments, hv, h1]; rfl, rfl, ?_⟩
  have hP : ∀ i, ((segOps (fin fun i => ((s.data i).occ, (s.data i).obj)) (near fun i => ((s.data i).occ, (s.data i).obj))).active i
      (s.data i) = true) = (((s.data i).occ = .ninf ∨ (∃ q : ℚ, (s.data i).occ = .fin q ∧ q < 1 / 2) ∨ 0 < (s.data i).obj) ∧
          fin (fun i => ((s.data i).occ, (s.data i).obj)) i = true) := by
    intro i
    simp only [segOps, Fl.half]
    cases (s.data i).occ <;> simp [Fl.lt]
  have hR : ∀ i j, ((segOps (fin fun i => ((s.data i).occ, (s.data i).obj)) (near fun i => ((s.data i).occ, (s.data i).obj))).conn i j
      (s.data i) (s.data j) = true) = ((s.data i).obj = (s.data j).obj ∧ near (fun i => ((s.data i).occ, (s.data i).obj)) i j = true) := by
    intro i j
    simp [segOps]
  rw [funext hP, funext fun i => funext (hR i)] at h4
  exact h4

/-- Concrete case: a filled unnamed cell gets segment 0 and separates two segments. -/
example : ((TagMapSt.init fun i => if i.1 = 1 then ⟨.fin 1, 0, 0, 8⟩ else ⟨.fin 0, 0, 0, 8⟩).updateSegments ⟨3, 1, 1⟩
      (fun _ _ => true) (fun _ _ _ => true)).map (fun r => (r.2, (allIdx ⟨3, 1, 1⟩).map fun i => (r.1.data i).seg)) =
    some (2, [1, 0, 2]) := by decide +kernel

/-- The segments in `data` are the answer for the extrema of `fin` and `near`. -/
def SegLabelled (d : Dims) (fin : (Idx → Fl × Nat) → Idx → Bool) (near : (Idx → Fl × Nat) → Idx → Idx → Bool)
    (data : Idx → TagCompCell) (n : Nat) : Prop :=
  IsLabelling d
    (fun i => ((data i).occ = .ninf ∨ (∃ q : ℚ, (data i).occ = .fin q ∧ q < 1 / 2) ∨ 0 < (data i).obj) ∧
      fin (fun i => ((data i).occ, (data i).obj)) i = true)
    (fun i j => (data i).obj = (data j).obj ∧ near (fun i => ((data i).occ, (data i).obj)) i j = true)
    (fun i => (data i).seg) n

/-- C75 (partial). In every history of plain operations the stored segments, when they are marked valid, are the answer for
the current occupancies and object ids and for the parameters of some call of `UpdateSpatialSegments` in the history; when
they are not marked valid, `NumSpatialSegments` has no value.
Missing: that the parameters are those of the last call (`C75_other_parameters_ignored`). -/
theorem C75_cached_segments_partial (d : Dims) (hN : d.nx * d.ny * d.nz < 2 ^ 32) (ops : List TagOp)
    (hnear : ∀ fin near, TagOp.segments fin near ∈ ops → ∀ v i j, near v i j = near v j i) (data : Idx → TagCompCell) :
    ∃ s, (TagMapSt.init data).run d ops = some s ∧
      (s.segValid = true → s.numSegments = some s.numSeg ∧
        ∃ fin near, TagOp.segments fin near ∈ ops ∧ SegLabelled d fin near s.data s.numSeg) ∧
      (s.segValid = false → s.numSegments = none) := by
  have key : ∀ (ops all : List TagOp) (s : TagMapSt), (∀ o ∈ ops, o ∈ all) →
      (∀ fin near, TagOp.segments fin near ∈ ops → ∀ v i j, near v i j = near v j i) →
      (s.segValid = true → ∃ fin near, TagOp.segments fin near ∈ all ∧ SegLabelled d fin near s.data s.numSeg) →
      ∃ s', s.run d ops = some s' ∧
        (s'.segValid = true → ∃ fin near, TagOp.segments fin near ∈ all ∧ SegLabelled d fin near s'.data s'.numSeg) := by
    intro ops all
    induction ops with
    | nil => exact fun s _ _ h => ⟨s, rfl, h⟩
    | cons o os ih =>
      intro s hall hn hs
      have hstep : ∃ s1, s.step d o = some s1 ∧
          (s1.segValid = true → ∃ fin near, TagOp.segments fin near ∈ all ∧ SegLabelled d fin near s1.data s1.numSeg) := by
        cases o with
        | access i f =>
          simp only [TagMapSt.step]
          split
          · exact ⟨_, rfl, by simp⟩
          · exact ⟨_, rfl, hs⟩
        | raw data => exact ⟨_, rfl, by simp⟩
        | update across =>
          by_cases hv : s.valid = true
          · exact ⟨s, by simp [TagMapSt.step, TagMapSt.update, hv], hs⟩
          · obtain ⟨data', n, h1, h2, _⟩ := computeCC_tag d across hN s.data
            refine ⟨{ s with data := data', num := n, valid := true, segValid := flagAfterMarking d s.segValid },
              by simp [TagMapSt.step, TagMapSt.update, hv, h1], fun hval => ?_⟩
            have hsv : s.segValid = true := by
              cases he : (allIdx d).isEmpty <;> simp [flagAfterMarking, he] at hval
              exact hval
            obtain ⟨fin, near, h3, h4⟩ := hs hsv
            refine ⟨fin, near, h3, ?_⟩
            unfold SegLabelled at h4 ⊢
            simpa only [fun i => (h2 i).1, fun i => (h2 i).2.1, fun i => (h2 i).2.2] using h4
        | segments fin near =>
          by_cases hv : s.segValid = true
          · exact ⟨s, by simp [TagMapSt.step, TagMapSt.updateSegments, hv], hs⟩
          · have hn' := hn fin near (by simp)
            obtain ⟨s', n, h1, h2, h3⟩ := C45_spatial_segments d hN s (by simpa using hv) fin near hn'
            obtain ⟨s2, n2, h5, -, h6⟩ := (C26_labels_survive_partial d hN s).1 fin near hn'
            rw [h1] at h5
            cases h5
            refine ⟨s', by simp [TagMapSt.step, h1], fun hval => ⟨fin, near, hall _ (by simp), ?_⟩⟩
            have hnum : s'.numSeg = n := by simpa [TagMapSt.numSegments, hval] using h2
            rw [hnum]
            unfold SegLabelled
            simpa only [fun i => (h6 i).1, fun i => (h6 i).2.1] using h3
        | forceInvalid => exact ⟨_, rfl, hs⟩
        | forceSegInvalid => exact ⟨_, rfl, by simp⟩
      obtain ⟨s1, h1, h2⟩ := hstep
      obtain ⟨s', h3, h4⟩ := ih s1 (fun o h => hall o (by simp [h])) (fun f n h => hn f n (by simp [h])) h2
      exact ⟨s', by simp [TagMapSt.run, h1, h3], h4⟩
  obtain ⟨s, h1, h2⟩ := key ops ops (TagMapSt.init data) (fun _ h => h) hnear (by simp [TagMapSt.init])
  exact ⟨s, h1, fun hv => ⟨by simp [TagMapSt.numSegments, hv], h2 hv⟩, fun hv => by simp [TagMapSt.numSegments, hv]⟩

/-- C75, negative: a second call with another threshold returns the answer of the first one, which is wrong for it. -/
theorem C75_other_parameters_ignored :
    ((TagMapSt.init fun _ => ⟨.fin 0, 0, 0, 0⟩).run ⟨2, 1, 1⟩
      [.segments (fun _ _ => true) (fun _ _ _ => true), .segments (fun _ _ => true) (fun _ _ _ => false)]).map
        (fun s => (s.segValid, s.numSegments)) = some (true, some 1) ∧
    ((TagMapSt.init fun _ => ⟨.fin 0, 0, 0, 0⟩).updateSegments ⟨2, 1, 1⟩ (fun _ _ => true) (fun _ _ _ => false)).map Prod.snd =
      some 2 := by decide +kernel

/-- Concrete case of `C75_cached_segments_partial`: after the segments a cell is written, then the components are updated. -/
example : ((TagMapSt.init fun _ => ⟨.fin 0, 0, 0, 0⟩).run ⟨2, 1, 1⟩
      [.segments (fun _ _ => true) (fun _ _ _ => true), .access (0, 0, 0) (fun c => { c with obj := 1 }),
        .segments (fun _ _ => true) (fun _ _ _ => true)]).map (fun s => (s.segValid, s.numSegments)) = some (true, some 2) ∧
    ((TagMapSt.init fun _ => ⟨.fin 0, 0, 0, 0⟩).run ⟨2, 1, 1⟩
      [.segments (fun _ _ => true) (fun _ _ _ => true), .access (0, 0, 0) (fun c => { c with obj := 1 })]).map
        (fun s => (s.segValid, s.numSegments)) = some (false, none) := by decide +kernel

end VGT
