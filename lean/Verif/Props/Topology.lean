import Verif.Lemmas.TopologyBox
import Verif.Lemmas.TopologyBound
import Verif.Lemmas.Surface
import Verif.Props.Components

/-!
C27: holes and voids of components.
-/
set_option autoImplicit false

namespace VGT
open VGT.EDT VGT.Spec

section
variable {C : Type}

theorem componentAt_iff (comp : C → ℕ) (d : Dims) (data : Idx → C) (k : ℕ) :
    (fun p => componentAt comp d data p = (k : ℤ)) = componentSolid d (fun i => comp (data i)) k := by
  funext p
  apply propext
  by_cases h : ∃ j, d.In j ∧ p = toZ j
  · obtain ⟨j, hj, rfl⟩ := h
    rw [componentAt_toZ _ _ hj]
    constructor
    · intro e; exact ⟨j, hj, rfl, by exact_mod_cast e⟩
    · rintro ⟨i, hi, e, hk⟩
      rw [toZ_inj] at e
      subst e
      exact_mod_cast hk
  · rw [componentAt_out _ _ h]
    constructor
    · intro e; omega
    · rintro ⟨i, hi, e, -⟩; exact absurd ⟨i, hi, e⟩ h

/-- What a component topology report has to say. -/
structure GoodReport (d : Dims) (label : Idx → ℕ) (wanted : Idx → Prop) (r : List (ℕ × HolesAndVoids)) : Prop where
  /-- One entry for each component with wanted cells, in increasing order. -/
  keys : ∀ k, (∃ h, (k, h) ∈ r) ↔ ∃ i, d.In i ∧ label i = k ∧ wanted i
  sorted : r.Pairwise fun a b => a.1 < b.1
  /-- Right numbers for each. -/
  right : ∀ k h, (k, h) ∈ r → TopologyOf (componentSolid d label k) h.holes h.voids

theorem topologyLoop_spec (d : Dims) (label : Idx → ℕ) (hv : ℕ → List ZIdx → Run HolesAndVoids) : ∀ (s : Surfaces),
    (∀ p ∈ s, (hv p.1 p.2 = .invalidArgument ∧ ¬ ShapeOk (componentSolid d label p.1)) ∨
      ∃ h, hv p.1 p.2 = .done h ∧ TopologyOf (componentSolid d label p.1) h.holes h.voids) →
    (topologyLoop hv s = .invalidArgument ∧ ∃ p ∈ s, ¬ ShapeOk (componentSolid d label p.1)) ∨
    ∃ r, topologyLoop hv s = .done r ∧ r.map Prod.fst = s.map Prod.fst ∧
      ∀ k h, (k, h) ∈ r → TopologyOf (componentSolid d label k) h.holes h.voids
  | [], _ => Or.inr ⟨[], rfl, rfl, by simp⟩
  | (k, cells) :: rest, hs => by
    rcases hs (k, cells) (by simp) with ⟨h1, h2⟩ | ⟨h, h1, h2⟩
    · left
      dsimp only at h1
      rw [topologyLoop, h1]
      exact ⟨rfl, _, List.mem_cons_self, h2⟩
    · dsimp only at h1
      rcases topologyLoop_spec d label hv rest fun p hp => hs p (by simp [hp]) with ⟨r1, p, r2, r3⟩ | ⟨r, r1, r2, r3⟩
      · left
        rw [topologyLoop, h1]
        dsimp only [Run.bind]
        rw [r1]
        exact ⟨rfl, p, List.mem_cons_of_mem _ r2, r3⟩
      · right
        refine ⟨(k, h) :: r, ?_, by simp [r2], ?_⟩
        · rw [topologyLoop, h1]
          dsimp only [Run.bind]
          rw [r1]
        · intro k' h' hm
          rcases List.mem_cons.1 hm with e | hm
          · cases e; exact h2
          · exact r3 k' h' hm

/-- The report for labelled cells, if the looked-up offset is right for each wanted component. -/
theorem topology_good {zp : ℤ} {order : List ZIdx → List ZIdx} (hord : ∀ l, (order l).Perm l) (occ : C → Fl) (comp : C → ℕ)
    (d : Dims) (data : Idx → C) (hc : ∀ i, d.In i → comp (data i) < 2 ^ 32) (m : TypeMask)
    (hcls : ∀ i j, d.In i → d.In j → comp (data i) = comp (data j) → classOf (occ (data i)) = classOf (occ (data j)))
    (hz : ∀ i, d.In i → Requested m (classOf (occ (data i))) → OffsetOk zp (componentSolid d (fun i => comp (data i)) (comp (data i)))) :
    (topologyWith zp order occ comp d data m = some .invalidArgument ∧
      ∃ i, d.In i ∧ Requested m (classOf (occ (data i))) ∧ ¬ ShapeOk (componentSolid d (fun i => comp (data i)) (comp (data i)))) ∨
    ∃ r, topologyWith zp order occ comp d data m = some (.done r) ∧
      GoodReport d (fun i => comp (data i)) (fun i => Requested m (classOf (occ (data i)))) r := by
  obtain ⟨s, h1, h2, h3⟩ := extractSurfaces_spec (d := d) occ comp data hc m
  rcases topologyLoop_spec d (fun i => comp (data i))
    (fun k surface => holesAndVoidsWith zp order k surface (componentAt comp d data)) s (by
      rintro ⟨k, cells⟩ hp
      obtain ⟨c0, hc0⟩ := List.exists_mem_of_ne_nil _ (h2.nonempty _ hp)
      obtain ⟨i, hi, -, hk, hreq⟩ := (h3 k c0).1 ⟨cells, hp, hc0⟩
      subst hk
      have hmem : ∀ p, p ∈ cells ↔ componentAt comp d data p = (comp (data i) : ℕ) := by
        intro p
        have hiff : componentAt comp d data p = (comp (data i) : ℕ) ↔ componentSolid d (fun i => comp (data i)) (comp (data i)) p :=
          iff_of_eq (congrFun (componentAt_iff comp d data (comp (data i))) p)
        rw [hiff]
        constructor
        · intro hpc
          obtain ⟨j, hj, e, hk', -⟩ := (h3 _ p).1 ⟨cells, hp, hpc⟩
          exact ⟨j, hj, e, hk'⟩
        · rintro ⟨j, hj, e, hk'⟩
          obtain ⟨cells', hp', hpc'⟩ := (h3 (comp (data i)) p).2 ⟨j, hj, e, hk', by rw [hcls j i hj hi hk']; exact hreq⟩
          have : cells' = cells := by
            by_contra hne
            have hpw := List.pairwise_iff_getElem.1 h2.keys
            obtain ⟨n1, g1, e1⟩ := List.getElem_of_mem hp
            obtain ⟨n2, g2, e2⟩ := List.getElem_of_mem hp'
            rcases Nat.lt_trichotomy n1 n2 with hlt | heq | hlt
            · have := hpw n1 n2 g1 g2 hlt
              rw [e1, e2] at this
              exact absurd this (lt_irrefl _)
            · subst heq
              rw [e1] at e2
              cases e2
              exact hne rfl
            · have := hpw n2 n1 g2 g1 hlt
              rw [e1, e2] at this
              exact absurd this (lt_irrefl _)
          rw [← this]
          exact hpc'
      have hz' := hz i hi hreq
      rw [← componentAt_iff] at hz'
      have hq := holesAndVoids_spec hord hmem ⟨c0, (hmem c0).1 hc0⟩ hz'
      rw [componentAt_iff] at hq
      exact hq) with ⟨r1, ⟨k, cells⟩, hp, hn⟩ | ⟨r, r1, r2, r3⟩
  · left
    obtain ⟨c0, hc0⟩ := List.exists_mem_of_ne_nil _ (h2.nonempty _ hp)
    obtain ⟨i, hi, -, hk, hreq⟩ := (h3 k c0).1 ⟨cells, hp, hc0⟩
    subst hk
    exact ⟨by rw [topologyWith, h1, Option.map_some, r1], i, hi, hreq, hn⟩
  refine Or.inr ⟨r, by rw [topologyWith, h1, Option.map_some, r1], ?_, ?_, r3⟩
  · intro k
    have e1 : (∃ h, (k, h) ∈ r) ↔ k ∈ r.map Prod.fst := by simp
    rw [e1, r2]
    constructor
    · intro hk
      obtain ⟨⟨k', cells⟩, hp, rfl⟩ := List.mem_map.1 hk
      obtain ⟨c0, hc0⟩ := List.exists_mem_of_ne_nil _ (h2.nonempty _ hp)
      obtain ⟨i, hi, -, hk, hreq⟩ := (h3 k' c0).1 ⟨cells, hp, hc0⟩
      exact ⟨i, hi, hk, hreq⟩
    · rintro ⟨i, hi, hk, hreq⟩
      obtain ⟨cells, hp, -⟩ := (h3 k (toZ i)).2 ⟨i, hi, rfl, hk, hreq⟩
      exact List.mem_map.2 ⟨_, hp, rfl⟩
  · have : (r.map Prod.fst).Pairwise (· < ·) := by
      rw [r2, List.pairwise_map]; exact h2.keys
    rw [List.pairwise_map] at this
    exact this

end

/-! ### Classes and labels -/

theorem classOf_of_sameClass {a b : Fl} (h : SameClass a b) : classOf a = classOf b := by
  have f : ∀ q : ℚ, 1 / 2 < q → classOf (.fin q) = .filled := fun q h => by
    simp only [classOf]; rw [if_neg (not_lt.2 h.le), if_neg (ne_of_gt h)]
  have e : ∀ q : ℚ, q < 1 / 2 → classOf (.fin q) = .empty := fun q h => by
    simp only [classOf]; rw [if_pos h]
  rcases h with ⟨p, q, rfl, rfl, ⟨h1, h2⟩ | ⟨rfl, rfl⟩ | ⟨h1, h2⟩⟩ | ⟨rfl, rfl | ⟨q, rfl, h⟩⟩ | ⟨rfl, q, rfl, h⟩ |
    ⟨rfl, rfl | ⟨q, rfl, h⟩⟩ | ⟨rfl, q, rfl, h⟩
  · rw [e p h1, e q h2]
  · rfl
  · rw [f p h1, f q h2]
  · rfl
  · rw [f q h]; rfl
  · rw [f q h]; rfl
  · rfl
  · rw [e q h]; rfl
  · rw [e q h]; rfl

theorem sameClass_of_classOf {a b : Fl} (h : classOf a = classOf b) (hu : classOf a ≠ .undefined) : SameClass a b := by
  have tri : ∀ q : ℚ, (q < 1 / 2 ∧ classOf (.fin q) = .empty) ∨ (q = 1 / 2 ∧ classOf (.fin q) = .unknown) ∨
      (1 / 2 < q ∧ classOf (.fin q) = .filled) := by
    intro q
    simp only [classOf]
    rcases lt_trichotomy q (1 / 2) with hq | hq | hq
    · left; exact ⟨hq, by rw [if_pos hq]⟩
    · right; left; exact ⟨hq, by rw [hq]; simp⟩
    · right; right; exact ⟨hq, by rw [if_neg (not_lt.2 hq.le), if_neg (ne_of_gt hq)]⟩
  cases a with
  | nan => exact absurd rfl hu
  | pinf =>
    cases b with
    | nan => cases h
    | pinf => exact Or.inr (Or.inl ⟨rfl, Or.inl rfl⟩)
    | ninf => cases h
    | fin q =>
      rcases tri q with ⟨h1, h2⟩ | ⟨h1, h2⟩ | ⟨h1, h2⟩
      · rw [h2] at h; cases h
      · rw [h2] at h; cases h
      · exact Or.inr (Or.inl ⟨rfl, Or.inr ⟨q, rfl, h1⟩⟩)
  | ninf =>
    cases b with
    | nan => cases h
    | pinf => cases h
    | ninf => exact Or.inr (Or.inr (Or.inr (Or.inl ⟨rfl, Or.inl rfl⟩)))
    | fin q =>
      rcases tri q with ⟨h1, h2⟩ | ⟨h1, h2⟩ | ⟨h1, h2⟩
      · exact Or.inr (Or.inr (Or.inr (Or.inl ⟨rfl, Or.inr ⟨q, rfl, h1⟩⟩)))
      · rw [h2] at h; cases h
      · rw [h2] at h; cases h
  | fin p =>
    cases b with
    | nan =>
      rcases tri p with ⟨h1, h2⟩ | ⟨h1, h2⟩ | ⟨h1, h2⟩ <;> rw [h2] at h <;> cases h
    | pinf =>
      rcases tri p with ⟨h1, h2⟩ | ⟨h1, h2⟩ | ⟨h1, h2⟩
      · rw [h2] at h; cases h
      · rw [h2] at h; cases h
      · exact Or.inr (Or.inr (Or.inl ⟨rfl, p, rfl, h1⟩))
    | ninf =>
      rcases tri p with ⟨h1, h2⟩ | ⟨h1, h2⟩ | ⟨h1, h2⟩
      · exact Or.inr (Or.inr (Or.inr (Or.inr ⟨rfl, p, rfl, h1⟩)))
      · rw [h2] at h; cases h
      · rw [h2] at h; cases h
    | fin q =>
      left
      refine ⟨p, q, rfl, rfl, ?_⟩
      rcases tri p with ⟨h1, h2⟩ | ⟨h1, h2⟩ | ⟨h1, h2⟩ <;> rcases tri q with ⟨h3, h4⟩ | ⟨h3, h4⟩ | ⟨h3, h4⟩ <;>
        rw [h2, h4] at h <;> first | cases h | skip
      · exact Or.inl ⟨h1, h3⟩
      · exact Or.inr (Or.inl ⟨h1, h3⟩)
      · exact Or.inr (Or.inr ⟨h1, h3⟩)

/-- Cells joined by steps within a class have the same class. -/
theorem joined_classOf {d : Dims} {P : Idx → Prop} {R : Idx → Idx → Prop} {f : Idx → Fl} (hR : ∀ a b, R a b → SameClass (f a) (f b)) {i j : Idx}
    (h : Joined d P R i j) : classOf (f i) = classOf (f j) := by
  induction h with
  | refl => rfl
  | tail _ hs ih => exact ih.trans (classOf_of_sameClass (hR _ _ hs.2.2.2.2.2))

/-- Different joined cells have a class. -/
theorem joined_defined {d : Dims} {P : Idx → Prop} {R : Idx → Idx → Prop} {f : Idx → Fl} (hR : ∀ a b, R a b → SameClass (f a) (f b)) {i j : Idx}
    (h : Joined d P R i j) (hne : i ≠ j) : SameClass (f i) (f j) := by
  apply sameClass_of_classOf (joined_classOf hR h)
  rcases Relation.ReflTransGen.cases_head h with rfl | ⟨b, hs, -⟩
  · exact absurd rfl hne
  · have := hR _ _ hs.2.2.2.2.2
    intro hu
    rcases this with ⟨p, q, h1, -, h3⟩ | ⟨h1, -⟩ | ⟨-, q, h1, h3⟩ | ⟨h1, -⟩ | ⟨-, q, h1, h3⟩
    · rw [h1] at hu; simp only [classOf] at hu; split_ifs at hu
    · rw [h1] at hu; cases hu
    · rw [h1] at hu; simp only [classOf] at hu; split_ifs at hu
    · rw [h1] at hu; cases hu
    · rw [h1] at hu; simp only [classOf] at hu; split_ifs at hu

theorem flat_of_labels {d : Dims} {label : Idx → ℕ} {k : ℕ}
    (h : ∀ x y z, d.In (x, y, z + 1) → label (x, y, z) = k → label (x, y, z + 1) ≠ k) : OffsetOk (-1) (componentSolid d label k) := by
  refine Or.inr ⟨rfl, ?_⟩
  rintro x y z ⟨⟨i1, i2, i3⟩, hi, e, hk⟩ ⟨⟨j1, j2, j3⟩, hj, e', hk'⟩
  simp only [VGT.toZ, Prod.mk.injEq] at e e'
  obtain ⟨rfl, rfl, rfl⟩ := e
  have h1 : i1 = j1 := by omega
  have h2 : i2 = j2 := by omega
  have h3 : i3 = j3 + 1 := by omega
  subst h1 h2 h3
  exact h _ _ _ hi hk' hk

/-- The voxels of a component are joined over faces. -/
theorem labelling_connected {d : Dims} {R : Idx → Idx → Prop} {label : Idx → ℕ} {n : ℕ} (h : IsLabelling d (fun _ => True) R label n)
    {i : Idx} (hi : d.In i) (p : ZIdx) (hp : componentSolid d label (label i) p) :
    Relation.ReflTransGen (fun a b => componentSolid d label (label i) a ∧ componentSolid d label (label i) b ∧ PointAdj a b) (toZ i) p := by
  obtain ⟨j, hj, rfl, e⟩ := hp
  have hij := (h.same i j hi hj trivial trivial).1 e.symm
  clear e hj
  induction hij with
  | refl => exact .refl
  | @tail b c hib hs ih =>
    refine .tail ih ?_
    have hc : Joined d (fun _ => True) R i c := Relation.ReflTransGen.tail hib hs
    refine ⟨⟨b, hs.1, rfl, ((h.same i b hi hs.1 trivial trivial).2 hib).symm⟩, ⟨c, hs.2.1, rfl, ((h.same i c hi hs.2.1 trivial trivial).2 hc).symm⟩, ?_⟩
    obtain ⟨b1, b2, b3⟩ := b
    obtain ⟨c1, c2, c3⟩ := c
    have hadj := hs.2.2.2.2.1
    simp only [FaceAdj, PointAdj, VGT.toZ, Prod.mk.injEq] at hadj ⊢
    omega

/-- A flat component. -/
theorem flat_shape {d : Dims} {R : Idx → Idx → Prop} {label : Idx → ℕ} {n : ℕ} (h : IsLabelling d (fun _ => True) R label n)
    {i : Idx} (hi : d.In i) (hf : OffsetOk (-1) (componentSolid d label (label i))) : ShapeOk (componentSolid d label (label i)) := by
  rcases hf with hf | ⟨-, hf⟩
  · omega
  · exact Or.inr ⟨fun x y z hh => hf x y (z + 1) hh.2 (by simpa using hh.1), toZ i, ⟨i, hi, rfl, rfl⟩, labelling_connected h hi⟩

/-- There are at most as many components as cells. -/
theorem labelling_le {d : Dims} {P : Idx → Prop} {R : Idx → Idx → Prop} {label : Idx → ℕ} {n : ℕ} (h : IsLabelling d P R label n) :
    n ≤ d.nx * d.ny * d.nz := by
  have hex : ∀ l : ℕ, ∃ i, l < n → d.In i ∧ label i = l + 1 := by
    intro l
    by_cases hl : l < n
    · obtain ⟨i, h1, -, h3⟩ := h.onto (l + 1) (by omega) (by omega)
      exact ⟨i, fun _ => ⟨h1, h3⟩⟩
    · exact ⟨(0, 0, 0), fun h => absurd h hl⟩
  choose f hf using hex
  have hnd : ((List.range n).map f).Nodup := by
    rw [List.nodup_map_iff_inj_on List.nodup_range]
    intro a ha b hb e
    rw [List.mem_range] at ha hb
    have h1 := (hf a ha).2
    have h2 := (hf b hb).2
    rw [e] at h1
    omega
  have := length_le_of_in (d := d) hnd (by
    intro i hi
    obtain ⟨l, hl, rfl⟩ := List.mem_map.1 hi
    exact (hf l (List.mem_range.1 hl)).1)
  simpa using this

/-! ### C27 -/

/-- C27, the part that holds for the code as it is: if no two cells of a requested class lie directly above each other
(for instance in a map with a single layer), `ComputeComponentTopology` does not throw, whatever the order in which hash
containers are visited; it reports every requested component once, and the numbers are right.  Missing: components that
are two or more cells thick in z, where it is false (see `C27_filled_map_throws`, `C27_wrong_numbers`). -/
theorem C27_flat_partial {order : List ZIdx → List ZIdx} (hord : ∀ l, (order l).Perm l) (d : Dims)
    (hN : d.nx * d.ny * d.nz < 2 ^ 32) (s : OccMapSt) (hv : s.valid = false) (m : TypeMask)
    (hflat : ∀ x y z, d.In (x, y, z + 1) → Requested m (classOf (s.data (x, y, z)).occ) →
      ¬ SameClass (s.data (x, y, z)).occ (s.data (x, y, z + 1)).occ) :
    ∃ s' n r, s.update d = some (s', n) ∧ s.topology order d m = some (.done r) ∧
      GoodReport d (fun i => (s'.data i).comp) (fun i => Requested m (classOf (s.data i).occ)) r := by
  obtain ⟨data', n, h, ho, hl⟩ := computeCC_occ d hN s.data
  have hup : s.update d = some (⟨data', n, true⟩, n) := by simp [OccMapSt.update, hv, h]
  have hle := labelling_le hl
  have hoff : ∀ i, d.In i → Requested m (classOf (data' i).occ) → OffsetOk (-1) (componentSolid d (fun i => (data' i).comp) (data' i).comp) :=
    fun i hi hreq => flat_of_labels fun x y z hin e1 e2 => by
      have hin' : d.In (x, y, z) := ⟨hin.1, hin.2.1, Nat.lt_of_succ_lt hin.2.2⟩
      have hj := (hl.same _ _ hin' hin trivial trivial).1 (e1.trans e2.symm)
      refine hflat x y z hin ?_ (joined_defined (f := fun i => (s.data i).occ) (fun _ _ h => h) hj (by simp))
      rw [ho i] at hreq
      rw [joined_classOf (f := fun i => (s.data i).occ) (fun _ _ h => h) ((hl.same _ _ hin' hi trivial trivial).1 e1)]
      exact hreq
  obtain ⟨r, r1, r2⟩ := (topology_good (zp := -1) hord OccCompCell.occ OccCompCell.comp d data'
    (fun i hi => lt_of_le_of_lt ((hl.range i hi trivial).2.trans hle) hN) m
    (fun i j hi hj e => by
      rw [ho i, ho j]
      exact joined_classOf (f := fun i => (s.data i).occ) (fun _ _ h => h) ((hl.same i j hi hj trivial trivial).1 e))
    hoff).resolve_left fun ⟨_, i, hi, hreq, hn⟩ => hn (flat_shape hl hi (hoff i hi hreq))
  refine ⟨_, n, r, hup, ?_, ?_⟩
  · rw [OccMapSt.topology, hup]
    exact r1
  · simpa only [ho] using r2

/-- C27 for the tagged map, both modes. -/
theorem C27_tagged_flat_partial {order : List ZIdx → List ZIdx} (hord : ∀ l, (order l).Perm l) (d : Dims)
    (hN : d.nx * d.ny * d.nz < 2 ^ 32) (s : TagMapSt) (hv : s.valid = false) (across : Bool) (m : TypeMask)
    (hflat : ∀ x y z, d.In (x, y, z + 1) → Requested m (classOf (s.data (x, y, z)).occ) →
      ¬ SameClass (s.data (x, y, z)).occ (s.data (x, y, z + 1)).occ) :
    ∃ s' n r, s.update d across = some (s', n) ∧ s.topology order d across m = some (.done r) ∧
      GoodReport d (fun i => (s'.data i).comp) (fun i => Requested m (classOf (s.data i).occ)) r := by
  obtain ⟨data', n, h, ho, hl⟩ := computeCC_tag d across hN s.data
  obtain ⟨s', hs', hd'⟩ : ∃ s', s.update d across = some (s', n) ∧ s'.data = data' := by
    simp only [TagMapSt.update, hv, h]
    exact ⟨_, rfl, rfl⟩
  have hle := labelling_le hl
  have hR : ∀ a b, (SameClass (s.data a).occ (s.data b).occ ∧ (across = true ∨ (s.data a).obj = (s.data b).obj)) →
      SameClass (s.data a).occ (s.data b).occ := fun _ _ h => h.1
  have hoff : ∀ i, d.In i → Requested m (classOf (data' i).occ) → OffsetOk (-1) (componentSolid d (fun i => (data' i).comp) (data' i).comp) :=
    fun i hi hreq => flat_of_labels fun x y z hin e1 e2 => by
      have hin' : d.In (x, y, z) := ⟨hin.1, hin.2.1, Nat.lt_of_succ_lt hin.2.2⟩
      have hj := (hl.same _ _ hin' hin trivial trivial).1 (e1.trans e2.symm)
      refine hflat x y z hin ?_ (joined_defined (f := fun i => (s.data i).occ) hR hj (by simp))
      rw [(ho i).1] at hreq
      rw [joined_classOf (f := fun i => (s.data i).occ) hR ((hl.same _ _ hin' hi trivial trivial).1 e1)]
      exact hreq
  obtain ⟨r, r1, r2⟩ := (topology_good (zp := -1) hord TagCompCell.occ TagCompCell.comp d data'
    (fun i hi => lt_of_le_of_lt ((hl.range i hi trivial).2.trans hle) hN) m
    (fun i j hi hj e => by
      rw [(ho i).1, (ho j).1]
      exact joined_classOf (f := fun i => (s.data i).occ) hR ((hl.same i j hi hj trivial trivial).1 e))
    hoff).resolve_left fun ⟨_, i, hi, hreq, hn⟩ => hn (flat_shape hl hi (hoff i hi hreq))
  refine ⟨s', n, r, hs', ?_, ?_⟩
  · rw [TagMapSt.topology, hs']
    dsimp only [Option.bind]
    rw [hd']
    exact r1
  · rw [hd']
    simpa only [(ho _).1] using r2

/-- C27, counterfactual: with the neighbour above looked up at `Z() + 1`, on every map the report is right or the
constructor of `NumberOfHolesAndVoids` throws because the formula gives a negative number of holes; the latter only if some
requested component touches itself (or a void touches a void or the outside) in edges or points only. -/
theorem C27_repaired_every_map {order : List ZIdx → List ZIdx} (hord : ∀ l, (order l).Perm l) (d : Dims)
    (hN : d.nx * d.ny * d.nz < 2 ^ 32) (s : OccMapSt) (hv : s.valid = false) (m : TypeMask) :
    ∃ s' n, s.update d = some (s', n) ∧
      ((topologyWith 1 order OccCompCell.occ OccCompCell.comp d s'.data m = some .invalidArgument ∧
        ∃ i, d.In i ∧ Requested m (classOf (s.data i).occ) ∧
          ¬ (NoEdgeContact (componentSolid d (fun i => (s'.data i).comp) (s'.data i).comp) ∧
             NoPointContact (componentSolid d (fun i => (s'.data i).comp) (s'.data i).comp))) ∨
      ∃ r, topologyWith 1 order OccCompCell.occ OccCompCell.comp d s'.data m = some (.done r) ∧
        GoodReport d (fun i => (s'.data i).comp) (fun i => Requested m (classOf (s.data i).occ)) r) := by
  obtain ⟨data', n, h, ho, hl⟩ := computeCC_occ d hN s.data
  have hup : s.update d = some (⟨data', n, true⟩, n) := by simp [OccMapSt.update, hv, h]
  have hle := labelling_le hl
  refine ⟨_, n, hup, ?_⟩
  rcases topology_good (zp := 1) hord OccCompCell.occ OccCompCell.comp d data'
    (fun i hi => lt_of_le_of_lt ((hl.range i hi trivial).2.trans hle) hN) m
    (fun i j hi hj e => by
      rw [ho i, ho j]
      exact joined_classOf (f := fun i => (s.data i).occ) (fun _ _ h => h) ((hl.same i j hi hj trivial trivial).1 e))
    (fun i hi hreq => Or.inl rfl) with ⟨r1, i, hi, hreq, hn⟩ | ⟨r, r1, r2⟩
  · left
    rw [ho i] at hreq
    exact ⟨r1, i, hi, hreq, fun hh => hn (Or.inl hh)⟩
  · right
    refine ⟨r, r1, ?_⟩
    simpa only [ho] using r2

/-- C27, boxes: a report that is right says `0` holes and `0` voids for a component that fills a box. -/
theorem C27_box_has_no_holes_or_voids {d : Dims} {label : Idx → ℕ} {wanted : Idx → Prop} {r : List (ℕ × HolesAndVoids)}
    (hr : GoodReport d label wanted r) {x0 y0 z0 : ℤ} {a b c k : ℕ} (ha : 1 ≤ a) (hb : 1 ≤ b) (hc : 1 ≤ c)
    (hbox : ∀ p, componentSolid d label k p ↔ boxSolid x0 y0 z0 a b c p) {h : HolesAndVoids} (hk : (k, h) ∈ r) :
    h = { holes := 0, voids := 0 } := by
  have := hr.right k h hk
  rw [show componentSolid d label k = boxSolid x0 y0 z0 a b c from funext fun p => propext (hbox p)] at this
  have := box_topology ha hb hc this
  cases h
  simp_all

/-! ### A filled map -/

theorem joined_origin {d : Dims} {R : Idx → Idx → Prop} (hR : ∀ i j, d.In i → d.In j → R i j) (i : Idx) (hi : d.In i) :
    Joined d (fun _ => True) R i (0, 0, 0) := by
  obtain ⟨x, y, z⟩ := i
  have s1 : ∀ x, d.In (x, y, z) → Joined d (fun _ => True) R (x, y, z) (0, y, z) := by
    intro x
    induction x with
    | zero => intro _; exact .refl
    | succ x ih =>
      intro h
      have h' : d.In (x, y, z) := ⟨Nat.lt_of_succ_lt h.1, h.2⟩
      exact .head ⟨h, h', trivial, trivial, Or.inl ⟨rfl, Or.inl rfl⟩, hR _ _ h h'⟩ (ih h')
  have s2 : ∀ y, d.In (0, y, z) → Joined d (fun _ => True) R (0, y, z) (0, 0, z) := by
    intro y
    induction y with
    | zero => intro _; exact .refl
    | succ y ih =>
      intro h
      have h' : d.In (0, y, z) := ⟨h.1, Nat.lt_of_succ_lt h.2.1, h.2.2⟩
      exact .head ⟨h, h', trivial, trivial, Or.inr (Or.inl ⟨rfl, rfl, Or.inl rfl⟩), hR _ _ h h'⟩ (ih h')
  have s3 : ∀ z, d.In (0, 0, z) → Joined d (fun _ => True) R (0, 0, z) (0, 0, 0) := by
    intro z
    induction z with
    | zero => intro _; exact .refl
    | succ z ih =>
      intro h
      have h' : d.In (0, 0, z) := ⟨h.1, h.2.1, Nat.lt_of_succ_lt h.2.2⟩
      exact .head ⟨h, h', trivial, trivial, Or.inr (Or.inr ⟨rfl, rfl, Or.inl rfl⟩), hR _ _ h h'⟩ (ih h')
  have h1 : 0 < d.nx := Nat.lt_of_le_of_lt (Nat.zero_le _) hi.1
  have h2 : 0 < d.ny := Nat.lt_of_le_of_lt (Nat.zero_le _) hi.2.1
  exact ((s1 x hi).trans (s2 y ⟨h1, hi.2⟩)).trans (s3 z ⟨h1, h2, hi.2.2⟩)

/-- The labels of a map whose cells all have the same class: all one. -/
theorem uniform_labels (d : Dims) (hN : d.nx * d.ny * d.nz < 2 ^ 32) (s : OccMapSt) (hv : s.valid = false)
    (hs : ∀ i j, d.In i → d.In j → SameClass (s.data i).occ (s.data j).occ) :
    ∃ s' n, s.update d = some (s', n) ∧ ∀ i, d.In i → (s'.data i).comp = 1 ∧ (s'.data i).occ = (s.data i).occ := by
  obtain ⟨data', n, h, ho, hl⟩ := computeCC_occ d hN s.data
  have hup : s.update d = some (⟨data', n, true⟩, n) := by simp [OccMapSt.update, hv, h]
  refine ⟨_, n, hup, fun i hi => ⟨?_, ho i⟩⟩
  have hr := hl.range i hi trivial
  obtain ⟨j, hj, -, e⟩ := hl.onto 1 (le_refl _) (by omega)
  have h1 := joined_origin hs i hi
  have h2 := joined_origin hs j hj
  have h0 : d.In (0, 0, 0) := ⟨Nat.lt_of_le_of_lt (Nat.zero_le _) hi.1, Nat.lt_of_le_of_lt (Nat.zero_le _) hi.2.1,
    Nat.lt_of_le_of_lt (Nat.zero_le _) hi.2.2⟩
  have e1 := (hl.same i _ hi h0 trivial trivial).2 h1
  have e2 := (hl.same j _ hj h0 trivial trivial).2 h2
  dsimp only at *
  omega

theorem full_solid {d : Dims} {label : Idx → ℕ} (h : ∀ i, d.In i → label i = 1) (p : ZIdx) :
    componentSolid d label 1 p ↔ boxSolid 0 0 0 d.nx d.ny d.nz p := by
  obtain ⟨x, y, z⟩ := p
  simp only [componentSolid, boxSolid]
  constructor
  · rintro ⟨⟨i, j, k⟩, ⟨h1, h2, h3⟩, e, -⟩
    simp only [VGT.toZ, Prod.mk.injEq] at e
    dsimp only at h1 h2 h3
    omega
  · rintro ⟨h1, h2, h3⟩
    have hin : d.In (x.toNat, y.toNat, z.toNat) := ⟨by dsimp only; omega, by dsimp only; omega, by dsimp only; omega⟩
    refine ⟨(x.toNat, y.toNat, z.toNat), hin, ?_, h _ hin⟩
    simp only [VGT.toZ, Prod.mk.injEq]
    omega

/-- C27 for a filled map with one layer, of any size: one component, no holes, no voids. -/
theorem C27_filled_layer {order : List ZIdx → List ZIdx} (hord : ∀ l, (order l).Perm l) (a b : ℕ) (ha : 1 ≤ a) (hb : 1 ≤ b)
    (hN : a * b < 2 ^ 32) (data : Idx → OccCompCell) (hf : ∀ i, classOf (data i).occ = .filled) (m : TypeMask) (hm : m.filled = true) :
    (OccMapSt.init data).topology order ⟨a, b, 1⟩ m = some (.done [(1, { holes := 0, voids := 0 })]) := by
  have hN' : (⟨a, b, 1⟩ : Dims).nx * (⟨a, b, 1⟩ : Dims).ny * (⟨a, b, 1⟩ : Dims).nz < 2 ^ 32 := by simpa using hN
  obtain ⟨s', n, r, h1, h2, h3⟩ := C27_flat_partial hord ⟨a, b, 1⟩ hN' (OccMapSt.init data) rfl m (by
    rintro x y z ⟨-, -, h⟩
    dsimp only at h
    omega)
  obtain ⟨s'', n', h1', hl⟩ := uniform_labels ⟨a, b, 1⟩ hN' (OccMapSt.init data) rfl (fun i j _ _ => by
    apply sameClass_of_classOf
    · simp only [OccMapSt.init, hf]
    · simp only [OccMapSt.init, hf]; simp)
  rw [h1] at h1'
  cases h1'
  rw [h2]
  have hin : (⟨a, b, 1⟩ : Dims).In (0, 0, 0) := ⟨ha, hb, Nat.one_pos⟩
  obtain ⟨h, hk⟩ := (h3.keys 1).2 ⟨(0, 0, 0), hin, (hl _ hin).1, by simp only [OccMapSt.init, hf]; exact hm⟩
  have hkeys : ∀ k h', (k, h') ∈ r → k = 1 := by
    intro k h' hm
    obtain ⟨i, hi, e, -⟩ := (h3.keys k).1 ⟨h', hm⟩
    rw [← e, (hl i hi).1]
  have hval := C27_box_has_no_holes_or_voids h3 (x0 := 0) (y0 := 0) (z0 := 0) ha hb (le_refl 1) (full_solid fun i hi => (hl i hi).1) hk
  subst hval
  have hsort := h3.sorted
  rcases r with _ | ⟨⟨k1, v1⟩, _ | ⟨⟨k2, v2⟩, rest⟩⟩
  · cases hk
  · rw [List.mem_singleton] at hk; rw [hk]
  · have e1 := hkeys k1 v1 (by simp)
    have e2 := hkeys k2 v2 (by simp)
    have := List.rel_of_pairwise_cons hsort (a' := (k2, v2)) (by simp)
    dsimp only at this
    omega

/-- The lookup at `Z() - 1` makes the search throw on a solid box of at least two voxels in each direction. -/
theorem box_throws {k : ℕ} {g : ZIdx → ℤ} {x0 y0 z0 : ℤ} {a b c : ℕ} (ha : 2 ≤ a) (hb : 2 ≤ b) (hc : 2 ≤ c)
    (hg : ∀ p, g p = k ↔ boxSolid x0 y0 z0 a b c p) {surface : List ZIdx} (hs : ∀ p, p ∈ surface ↔ g p = k)
    {order : List ZIdx → List ZIdx} (hord : ∀ l, (order l).Perm l) : holesAndVoids order k surface g = .outOfRange := by
  have hs' : ∀ p, p ∈ order surface ↔ g p = k := fun p => (hord surface).mem_iff.trans (hs p)
  have hnd : (surfaceVerticesWith (-1) k g (order surface) []).Nodup := nodup_surfaceVertices (by simp)
  have := surfaceCount_missing (conn := connectivity k g) hord hnd connected_symm
    ⟨(x0, y0 + 1, z0 + c), ?_, (x0 + 1, y0 + 1, z0 + c), ?_, ?_⟩
  · unfold holesAndVoids holesAndVoidsWith
    dsimp only
    rw [this]
    rfl
  · rw [mem_surfaceVertices]
    refine Or.inr ⟨(x0, y0, z0 + c - 1), ?_, false, true, true, ?_, Or.inr (Or.inr ?_)⟩
    · rw [hs', hg]
      simp only [boxSolid]
      omega
    · simp [cornerOf]
    · rw [ne_eq, hg]
      simp only [boxSolid, Bool.false_eq_true, if_false]
      omega
  · rw [connected_iff]
    refine ⟨Or.inl ⟨rfl, Or.inl rfl⟩, (x0, y0, z0 + c - 1), (x0, y0, z0 + c), ?_, ?_, ?_, ?_⟩
    · simp [IsCorner]
    · simp [IsCorner]
    · dsimp only
      rw [hg]
      simp only [boxSolid]
      omega
    · dsimp only
      rw [hg]
      simp only [boxSolid]
      omega
  · rw [mem_surfaceVertices]
    rintro (h | ⟨⟨x, y, z⟩, hp, p, q, r, e, hi⟩)
    · cases h
    · rw [hs', hg] at hp
      simp only [boxSolid] at hp
      simp only [cornerOf, Prod.mk.injEq] at e
      unfold CornerInserted at hi
      simp only [ne_eq, hg, boxSolid] at hi
      cases p <;> cases q <;> cases r <;>
        simp only [Bool.toNat_true, Bool.toNat_false, Nat.cast_zero, Nat.cast_one, add_zero, if_true, Bool.false_eq_true, if_false] at e hi <;>
        omega

/-- C27 is false for the code as it is: on every filled map with at least two cells in each direction
`ComputeComponentTopology` throws `std::out_of_range`, whatever the order in which hash containers are visited. -/
theorem C27_filled_map_throws {order : List ZIdx → List ZIdx} (hord : ∀ l, (order l).Perm l) (d : Dims)
    (hx : 2 ≤ d.nx) (hy : 2 ≤ d.ny) (hz : 2 ≤ d.nz) (hN : d.nx * d.ny * d.nz < 2 ^ 32) (data : Idx → OccCompCell)
    (hf : ∀ i, classOf (data i).occ = .filled) (m : TypeMask) (hm : m.filled = true) :
    (OccMapSt.init data).topology order d m = some .outOfRange := by
  obtain ⟨s', n, h1, hl⟩ := uniform_labels d hN (OccMapSt.init data) rfl (fun i j _ _ => by
    apply sameClass_of_classOf
    · simp only [OccMapSt.init, hf]
    · simp only [OccMapSt.init, hf]; simp)
  rw [OccMapSt.topology, h1]
  dsimp only [Option.bind]
  obtain ⟨s, e1, e2, e3⟩ := extractSurfaces_spec (d := d) OccCompCell.occ OccCompCell.comp s'.data
    (fun i hi => by rw [(hl i hi).1]; omega) m
  rw [topologyWith, e1, Option.map_some]
  have hreq : ∀ i, d.In i → Requested m (classOf (s'.data i).occ) := fun i hi => by
    rw [(hl i hi).2]; simp only [OccMapSt.init, hf]; exact hm
  have h0 : d.In (0, 0, 0) := ⟨by dsimp only; omega, by dsimp only; omega, by dsimp only; omega⟩
  obtain ⟨cells, hc, -⟩ := (e3 1 (toZ (0, 0, 0))).2 ⟨(0, 0, 0), h0, rfl, (hl _ h0).1, hreq _ h0⟩
  have hkeys : ∀ k cells', (k, cells') ∈ s → k = 1 := by
    intro k cells' hm'
    obtain ⟨c0, hc0⟩ := List.exists_mem_of_ne_nil _ (e2.nonempty _ hm')
    obtain ⟨i, hi, -, e, -⟩ := (e3 k c0).1 ⟨cells', hm', hc0⟩
    rw [← e, (hl i hi).1]
  rcases s with _ | ⟨⟨k1, c1⟩, rest⟩
  · cases hc
  · have ek := hkeys k1 c1 (by simp)
    subst ek
    rw [topologyLoop]
    have key := box_throws (k := 1) (g := componentAt OccCompCell.comp d s'.data) (x0 := 0) (y0 := 0) (z0 := 0) hx hy hz (by
      intro p
      rw [← full_solid (label := fun i => (s'.data i).comp) fun i hi => (hl i hi).1]
      exact iff_of_eq (congrFun (componentAt_iff OccCompCell.comp d s'.data 1) p)) (surface := c1) (by
      intro p
      have hiff : componentAt OccCompCell.comp d s'.data p = (1 : ℕ) ↔ componentSolid d (fun i => (s'.data i).comp) 1 p :=
        iff_of_eq (congrFun (componentAt_iff OccCompCell.comp d s'.data 1) p)
      rw [hiff]
      constructor
      · intro hp
        obtain ⟨i, hi, e, hk, -⟩ := (e3 1 p).1 ⟨c1, by simp, hp⟩
        exact ⟨i, hi, e, hk⟩
      · rintro ⟨i, hi, e, hk⟩
        obtain ⟨c', hc', hp⟩ := (e3 1 p).2 ⟨i, hi, e, hk, hreq i hi⟩
        rcases List.mem_cons.1 hc' with h | h
        · cases h; exact hp
        · have := List.rel_of_pairwise_cons e2.keys h
          dsimp only at this
          omega) hord
    unfold holesAndVoids at key
    rw [key]
    rfl

/-! ### A wrong answer -/

/-- A solid 2×2×2 cube with one more voxel on top. -/
def exStep : Idx → OccCompCell := fun i =>
  if i.2.2 < 2 ∨ (i.1 = 0 ∧ i.2.1 = 0) then { occ := .fin 1, comp := 1 } else { occ := .fin 0, comp := 2 }

/-- Only filled components. -/
def onlyFilled : TypeMask := { filled := true, empty := false, unknown := false }

/-- A step between cells of the same class. -/
def SafeStep (d : Dims) (data : Idx → OccCompCell) (next : Idx → Idx) (i : Idx) : Prop :=
  next i ∈ allIdx d ∧ (next i = i ∨
      (((i.2 = (next i).2 ∧ (i.1 = (next i).1 + 1 ∨ (next i).1 = i.1 + 1)) ∨
        (i.1 = (next i).1 ∧ i.2.2 = (next i).2.2 ∧ (i.2.1 = (next i).2.1 + 1 ∨ (next i).2.1 = i.2.1 + 1)) ∨
        (i.1 = (next i).1 ∧ i.2.1 = (next i).2.1 ∧ (i.2.2 = (next i).2.2 + 1 ∨ (next i).2.2 = i.2.2 + 1))) ∧
        (data (next i)).occ = (data i).occ))

/-- Labels are those of `UpdateConnectedComponents` if steps inside the classes lead from each cell to the first cell with
its label, and neighbours of the same class have the same label. -/
theorem upToDate_of_check {d : Dims} {data : Idx → OccCompCell} {n : ℕ} (next : Idx → Idx) (N : ℕ) (rep : ℕ → Idx)
    (hocc : ∀ i, ∃ q, (data i).occ = .fin q)
    (h1 : ∀ i ∈ allIdx d, 1 ≤ (data i).comp ∧ (data i).comp ≤ n)
    (h2 : ∀ i ∈ allIdx d, SafeStep d data next i)
    (h3 : ∀ i ∈ allIdx d, next^[N] i = rep (data i).comp)
    (h4 : ∀ i ∈ allIdx d, ∀ j ∈ allIdx d, FaceAdj i j → classOf (data i).occ = classOf (data j).occ → (data i).comp = (data j).comp)
    (h5 : ∀ l, l ≤ n → 1 ≤ l → rep l ∈ allIdx d ∧ (data (rep l)).comp = l)
    (h6 : ∀ l, l ≤ n → 1 ≤ l → ∀ j ∈ allIdx d, l ≤ (data j).comp → ScanLE (rep l) j) : OccUpToDate d ⟨data, n, true⟩ := by
  have hrefl : ∀ q : ℚ, SameClass (.fin q) (.fin q) := fun q =>
    sameClass_of_classOf rfl (by simp only [classOf]; split_ifs <;> simp)
  have hone : ∀ i ∈ allIdx d, Joined d (fun _ => True) (fun i j => SameClass (data i).occ (data j).occ) i (next i) := by
    intro i hi
    obtain ⟨g1, g2 | ⟨g2, g3⟩⟩ := h2 i hi
    · rw [g2]; exact .refl
    · refine .single ⟨mem_allIdx.1 hi, mem_allIdx.1 g1, trivial, trivial, g2, ?_⟩
      obtain ⟨q, hq⟩ := hocc i
      rw [g3, hq]
      exact hrefl q
  have hiter : ∀ m i, i ∈ allIdx d → next^[m] i ∈ allIdx d ∧
      Joined d (fun _ => True) (fun i j => SameClass (data i).occ (data j).occ) i (next^[m] i) := by
    intro m
    induction m with
    | zero => intro i hi; exact ⟨hi, .refl⟩
    | succ m ih =>
      intro i hi
      rw [Function.iterate_succ_apply]
      obtain ⟨g1, g2⟩ := ih _ (h2 i hi).1
      exact ⟨g1, (hone i hi).trans g2⟩
  have hsymm : ∀ i j, Joined d (fun _ => True) (fun i j => SameClass (data i).occ (data j).occ) i j →
      Joined d (fun _ => True) (fun i j => SameClass (data i).occ (data j).occ) j i := by
    intro i j h
    induction h with
    | refl => exact .refl
    | @tail b c _ hs ih =>
      refine .head ⟨hs.2.1, hs.1, trivial, trivial, ?_, sameClass_symm hs.2.2.2.2.2⟩ ih
      rcases hs.2.2.2.2.1 with ⟨h1, h2⟩ | ⟨h1, h2, h3⟩ | ⟨h1, h2, h3⟩
      · exact Or.inl ⟨h1.symm, h2.symm⟩
      · exact Or.inr (Or.inl ⟨h1.symm, h2.symm, h3.symm⟩)
      · exact Or.inr (Or.inr ⟨h1.symm, h2.symm, h3.symm⟩)
  refine ⟨fun i hi _ => h1 i (mem_allIdx.2 hi), fun i _ h => absurd trivial h, ?_, ?_, ?_⟩
  · intro l g1 g2
    obtain ⟨q1, q2⟩ := h5 l g2 g1
    exact ⟨rep l, mem_allIdx.1 q1, trivial, q2⟩
  · intro i j hi hj _ _
    dsimp only
    constructor
    · intro e
      have g1 := (hiter N i (mem_allIdx.2 hi)).2
      have g2 := (hiter N j (mem_allIdx.2 hj)).2
      rw [h3 i (mem_allIdx.2 hi)] at g1
      rw [h3 j (mem_allIdx.2 hj), ← e] at g2
      exact g1.trans (hsymm _ _ g2)
    · intro h
      induction h with
      | refl => rfl
      | @tail b c _ hs ih =>
        exact (ih hs.1).trans (h4 b (mem_allIdx.2 hs.1) c (mem_allIdx.2 hs.2.1) hs.2.2.2.2.1 (classOf_of_sameClass hs.2.2.2.2.2))
  · intro l g1 g2
    obtain ⟨q1, q2⟩ := h5 l g2 g1
    exact ⟨rep l, mem_allIdx.1 q1, trivial, q2, fun j hj hl => h6 l g2 g1 j (mem_allIdx.2 hj) hl⟩

/-- A step towards the first voxel of the component. -/
def exNext (i : Idx) : Idx :=
  if (exStep i).comp = 1 then
    if 0 < i.2.2 then (i.1, i.2.1, i.2.2 - 1) else if 0 < i.2.1 then (i.1, i.2.1 - 1, i.2.2) else (i.1 - 1, i.2.1, i.2.2)
  else if i = (1, 0, 2) then (1, 1, 2) else (0, 1, 2)

/-- The labels of `exStep` are those of `UpdateConnectedComponents`. -/
theorem exStep_upToDate : OccUpToDate ⟨2, 2, 3⟩ ⟨exStep, 2, true⟩ := by
  refine upToDate_of_check exNext 4 (fun l => if l = 1 then (0, 0, 0) else (0, 1, 2)) ?_ ?_ ?_ ?_ ?_ ?_ ?_
  · intro i; unfold exStep; split_ifs <;> exact ⟨_, rfl⟩
  · decide +kernel
  · unfold SafeStep; decide +kernel
  · decide +kernel
  · unfold FaceAdj; decide +kernel
  · decide +kernel
  · unfold ScanLE; decide +kernel

/-- C27 is false without an exception as well: for an up-to-date map with a cube and one voxel on top (a solid without
holes or voids) the code reports one hole and one void; with the corrected lookup it reports none. -/
theorem C27_wrong_numbers : ∃ (d : Dims) (s : OccMapSt), OccUpToDate d s ∧ s.valid = true ∧
    s.topology id d onlyFilled = some (.done [(1, { holes := 1, voids := 1 })]) ∧
    topologyWith 1 id OccCompCell.occ OccCompCell.comp d s.data onlyFilled = some (.done [(1, { holes := 0, voids := 0 })]) := by
  refine ⟨⟨2, 2, 3⟩, ⟨exStep, 2, true⟩, exStep_upToDate, rfl, ?_, ?_⟩
  · decide +kernel
  · decide +kernel

/-! ### Voids that touch -/

/-- A block of 4×7×3 voxels with five unit voids in the middle layer, each touching the next in an edge. -/
def exChain : Idx → OccCompCell := fun i =>
  if i.2.2 = 1 ∧ i.1 = 1 ∧ (i.2.1 = 1 ∨ i.2.1 = 3 ∨ i.2.1 = 5) then { occ := .fin 0, comp := (i.2.1 + 3) / 2 }
  else if i.2.2 = 1 ∧ i.1 = 2 ∧ (i.2.1 = 2 ∨ i.2.1 = 4) then { occ := .fin 0, comp := i.2.1 / 2 + 4 }
  else { occ := .fin 1, comp := 1 }

/-- A step towards the first voxel. -/
def exChainNext (i : Idx) : Idx :=
  if (exChain i).comp ≠ 1 then i
  else if i.2.2 = 1 then (i.1, i.2.1, 0)
  else if 0 < i.2.1 then (i.1, i.2.1 - 1, i.2.2) else if 0 < i.1 then (i.1 - 1, i.2.1, i.2.2) else (i.1, i.2.1, i.2.2 - 1)

/-- The first voxel of each component. -/
def exChainRep (l : ℕ) : Idx :=
  if l = 1 then (0, 0, 0) else if l = 2 then (1, 1, 1) else if l = 3 then (1, 3, 1) else if l = 4 then (1, 5, 1)
  else if l = 5 then (2, 2, 1) else (2, 4, 1)

theorem exChain_upToDate : OccUpToDate ⟨4, 7, 3⟩ ⟨exChain, 6, true⟩ := by
  refine upToDate_of_check exChainNext 12 exChainRep ?_ ?_ ?_ ?_ ?_ ?_ ?_
  · intro i; unfold exChain; split_ifs <;> exact ⟨_, rfl⟩
  · decide +kernel
  · unfold SafeStep; decide +kernel
  · decide +kernel
  · unfold FaceAdj; decide +kernel
  · decide +kernel
  · unfold ScanLE; decide +kernel

/-- C27, a second defect: the formula for the number of holes is only right for surfaces without singular edges.  For an
up-to-date map with a block in which five voids touch in edges, the number of holes comes out as `-1`, and with the
corrected lookup `ComputeComponentTopology` throws `std::invalid_argument` (the code as it is throws
`std::out_of_range`). -/
theorem C27_touching_voids_throw : ∃ (d : Dims) (s : OccMapSt), OccUpToDate d s ∧ s.valid = true ∧
    s.topology id d onlyFilled = some .outOfRange ∧
    topologyWith 1 id OccCompCell.occ OccCompCell.comp d s.data onlyFilled = some .invalidArgument := by
  refine ⟨⟨4, 7, 3⟩, ⟨exChain, 6, true⟩, exChain_upToDate, rfl, ?_, ?_⟩
  · decide +kernel
  · decide +kernel

/-! ### Concrete cases -/

/-- A ring of eight voxels in one layer. -/
def exRing : Idx → OccCompCell := fun i =>
  if i.1 = 1 ∧ i.2.1 = 1 then { occ := .fin 0, comp := 2 } else { occ := .fin 1, comp := 1 }

/-- The ring has one hole and no void. -/
example : topologyWith (-1) List.reverse OccCompCell.occ OccCompCell.comp ⟨3, 3, 1⟩ exRing onlyFilled =
    some (.done [(1, { holes := 1, voids := 0 })]) := by decide +kernel

/-- The assumptions of `C27_flat_partial` for the ring. -/
example : ∃ s' n r, (OccMapSt.init exRing).update ⟨3, 3, 1⟩ = some (s', n) ∧
    (OccMapSt.init exRing).topology List.reverse ⟨3, 3, 1⟩ onlyFilled = some (.done r) ∧
    GoodReport ⟨3, 3, 1⟩ (fun i => (s'.data i).comp) (fun i => Requested onlyFilled (classOf (exRing i).occ)) r :=
  C27_flat_partial (fun l => l.reverse_perm) _ (by decide) _ rfl _ (by rintro x y z ⟨-, -, h⟩; dsimp only at h; omega)

/-- A flat component in a map with several layers: a filled layer between empty ones. -/
example : ∃ s' n r, (OccMapSt.init fun i => { occ := if i.2.2 = 1 then .fin 1 else .fin 0, comp := 0 }).update ⟨3, 3, 3⟩ = some (s', n) ∧
    (OccMapSt.init fun i => { occ := if i.2.2 = 1 then .fin 1 else .fin 0, comp := 0 }).topology id ⟨3, 3, 3⟩ onlyFilled = some (.done r) ∧
    GoodReport ⟨3, 3, 3⟩ (fun i => (s'.data i).comp)
      (fun i => Requested onlyFilled (classOf (if i.2.2 = 1 then .fin 1 else .fin 0))) r := by
  refine C27_flat_partial (fun l => List.Perm.refl l) _ (by decide) _ rfl _ ?_
  intro x y z _ hreq hs
  have := classOf_of_sameClass hs
  simp only [OccMapSt.init] at hreq this
  by_cases h : z = 1
  · simp [h, classOf] at this
    norm_num at this
  · rw [if_neg h] at hreq
    simp [classOf, Requested, onlyFilled] at hreq

/-- A hollow cube with the corrected lookup: one void. -/
example : topologyWith 1 id OccCompCell.occ OccCompCell.comp ⟨3, 3, 3⟩
    (fun i => if i = (1, 1, 1) then { occ := .fin 0, comp := 2 } else { occ := .fin 1, comp := 1 }) onlyFilled =
    some (.done [(1, { holes := 0, voids := 1 })]) := by decide +kernel

/-- The assumptions of `C27_repaired_every_map` for a hollow cube. -/
example : ∃ s' n, (OccMapSt.init fun i => { occ := if i = (1, 1, 1) then .fin 0 else .fin 1, comp := 0 }).update ⟨3, 3, 3⟩ = some (s', n) := by
  obtain ⟨s', n, h, -⟩ := C27_repaired_every_map (order := id) (fun l => List.Perm.refl l) ⟨3, 3, 3⟩ (by decide)
    (OccMapSt.init fun i => { occ := if i = (1, 1, 1) then .fin 0 else .fin 1, comp := 0 }) rfl onlyFilled
  exact ⟨s', n, h⟩

/-- A filled map of 5×3 cells. -/
example : (OccMapSt.init fun _ => { occ := .fin 1, comp := 7 }).topology id ⟨5, 3, 1⟩ onlyFilled =
    some (.done [(1, { holes := 0, voids := 0 })]) :=
  C27_filled_layer (fun l => List.Perm.refl l) 5 3 (by omega) (by omega) (by omega) _
    (fun _ => by simp only [classOf]; norm_num) _ rfl

/-- A filled map of 2×2×2 cells: the exception. -/
example : (OccMapSt.init fun _ => { occ := .fin 1, comp := 0 }).topology id ⟨2, 2, 2⟩ onlyFilled = some .outOfRange :=
  C27_filled_map_throws (fun l => List.Perm.refl l) ⟨2, 2, 2⟩ (by decide) (by decide) (by decide) (by decide) _
    (fun _ => by simp only [classOf]; norm_num) _ rfl

end VGT
