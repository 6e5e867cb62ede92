import Verif.Model.Components
import Verif.Spec.Components
import Verif.Lemmas.MapSDF
import Mathlib.Data.Finset.Card
import Mathlib.Data.List.Nodup

set_option autoImplicit false

namespace VGT
open VGT.EDT VGT.Spec

section
variable {C : Type} {ops : CompOps C} {d : Dims}

theorem toN_toZ (i : Idx) : toN (toZ i) = i := by
  simp [toN, VGT.toZ]

theorem getComponent_toZ (data : Idx → C) {i : Idx} (hi : d.In i) :
    getComponent ops d data (toZ i) = if ops.active i (data i) then (ops.get (data i) : ℤ) else -1 := by
  simp [getComponent, getImm_toZ _ _ hi, toN_toZ]

theorem getComponent_out (data : Idx → C) {i : ZIdx} (hi : ¬ ∃ j, d.In j ∧ i = toZ j) :
    getComponent ops d data i = -1 := by
  simp [getComponent, (getImm_none d data).2 hi]

theorem markComponent_toZ (data : Idx → C) {i : Idx} (hi : d.In i) (l : ℕ) :
    markComponent ops d data (toZ i) l = fun j => if j = i then ops.set l (data j) else data j := by
  simp [markComponent, getImm_toZ _ _ hi, toN_toZ]

theorem areConnected_toZ (data : Idx → C) {i j : Idx} (hi : d.In i) (hj : d.In j) :
    areConnected ops d data (toZ i) (toZ j) = some (ops.conn i j (data i) (data j)) := by
  simp [areConnected, getImm_toZ _ _ hi, getImm_toZ _ _ hj, toN_toZ]

theorem toU32_neg_one : toU32 (-1) = 2 ^ 32 - 1 := by decide

theorem toU32_nat {n : ℕ} (h : n < 2 ^ 32) : toU32 (n : ℤ) = n := by
  unfold toU32
  omega

/-- Laws of the callbacks. -/
structure CompOps.Lawful (ops : CompOps C) : Prop where
  get_set : ∀ n c, ops.get (ops.set n c) = n
  set_set : ∀ m n c, ops.set m (ops.set n c) = ops.set m c
  active_set : ∀ i n c, ops.active i (ops.set n c) = ops.active i c
  conn_set : ∀ i j m n a b, ops.conn i j (ops.set m a) (ops.set n b) = ops.conn i j a b
  conn_symm : ∀ i j a b, ops.conn i j a b = ops.conn j i b a

/-- The edge relation used by the search. -/
def Link (ops : CompOps C) (d : Dims) (base : Idx → C) (i j : Idx) : Prop :=
  d.In i ∧ d.In j ∧ ops.active i (base i) = true ∧ ops.active j (base j) = true ∧ FaceAdj i j ∧
    ops.conn i j (base i) (base j) = true

theorem faceAdj_symm {i j : Idx} (h : FaceAdj i j) : FaceAdj j i := by
  rcases h with ⟨h, h'⟩ | ⟨h1, h2, h'⟩ | ⟨h1, h2, h'⟩
  · exact Or.inl ⟨h.symm, h'.symm⟩
  · exact Or.inr (Or.inl ⟨h1.symm, h2.symm, h'.symm⟩)
  · exact Or.inr (Or.inr ⟨h1.symm, h2.symm, h'.symm⟩)

theorem Link.symm (hl : ops.Lawful) {base : Idx → C} {i j : Idx} (h : Link ops d base i j) : Link ops d base j i := by
  obtain ⟨a, b, c, e, f, g⟩ := h
  exact ⟨b, a, e, c, faceAdj_symm f, by rw [hl.conn_symm]; exact g⟩

/-- The labelled cells: `data` is `base` with labels. -/
def Labelled (ops : CompOps C) (d : Dims) (base data : Idx → C) : Prop :=
  ∀ i, d.In i → data i = ops.set (ops.get (data i)) (base i)

theorem mem_six {i j : Idx} (h : FaceAdj i j) : toZ j ∈ sixNeighbors (toZ i) := by
  obtain ⟨x, y, z⟩ := i
  obtain ⟨x', y', z'⟩ := j
  simp only [FaceAdj, Prod.mk.injEq] at h
  simp only [sixNeighbors, VGT.toZ, List.mem_cons, Prod.mk.injEq, List.not_mem_nil, or_false]
  rcases h with ⟨⟨h1, h2⟩, h | h⟩ | ⟨h1, h2, h | h⟩ | ⟨h1, h2, h | h⟩
  · left; omega
  · right; left; omega
  · right; right; left; omega
  · right; right; right; left; omega
  · right; right; right; right; left; omega
  · right; right; right; right; right; omega

theorem six_mem {i j : Idx} (h : toZ j ∈ sixNeighbors (toZ i)) : FaceAdj i j := by
  obtain ⟨x, y, z⟩ := i
  obtain ⟨x', y', z'⟩ := j
  simp only [FaceAdj, Prod.mk.injEq]
  simp only [sixNeighbors, VGT.toZ, List.mem_cons, Prod.mk.injEq, List.not_mem_nil, or_false] at h
  omega

theorem toZ_mem_map {l : List Idx} {i : Idx} : toZ i ∈ l.map toZ ↔ i ∈ l := by
  constructor
  · intro h
    obtain ⟨j, hj, he⟩ := List.mem_map.1 h
    rwa [← toZ_inj he]
  · exact List.mem_map_of_mem

/-- What is known about the labels while handling neighbours of the current cell. -/
theorem handleNeighbors_spec (hl : ops.Lawful) {base data : Idx → C} (hlab : Labelled ops d base data)
    (hsmall : ∀ i, d.In i → ops.get (data i) < 2 ^ 32) {cur : Idx} (hcur : d.In cur)
    (hact : ops.active cur (base cur) = true)
    {queued0 : List Idx} (hL : ∀ j, Link ops d base cur j → ops.get (data j) ≠ 0 → j ∈ queued0) :
    ∀ (nbs : List ZIdx), (∀ j, toZ j ∈ nbs → FaceAdj cur j) → ∀ (q queued : List Idx), queued.Nodup →
      (∀ j ∈ queued0, j ∈ queued) →
      ∃ ext : List Idx, handleNeighbors ops d data (toZ cur) nbs ⟨q.map toZ, queued.map toZ⟩ =
          some ⟨(q ++ ext).map toZ, (queued ++ ext).map toZ⟩ ∧ (queued ++ ext).Nodup ∧
        (∀ j ∈ ext, Link ops d base cur j) ∧ ∀ j, toZ j ∈ nbs → Link ops d base cur j → j ∈ queued ++ ext
  | [], _, q, queued, hnd, _ => ⟨[], by simp [handleNeighbors], by simpa using hnd, by simp, by simp⟩
  | nb :: nbs, hadj, q, queued, hnd, hsub => by
    have ha : ∀ j, d.In j → ops.active j (data j) = ops.active j (base j) := fun j hj => by
      rw [hlab j hj, hl.active_set]
    have hadj' : ∀ j, toZ j ∈ nbs → FaceAdj cur j := fun j hj => hadj j (by simp [hj])
    -- the case where nothing is added
    have skip : handleNeighbor ops d data (toZ cur) nb ⟨q.map toZ, queued.map toZ⟩ = some ⟨q.map toZ, queued.map toZ⟩ →
        (∀ j, toZ j = nb → Link ops d base cur j → j ∈ queued) →
        ∃ ext : List Idx, handleNeighbors ops d data (toZ cur) (nb :: nbs) ⟨q.map toZ, queued.map toZ⟩ =
          some ⟨(q ++ ext).map toZ, (queued ++ ext).map toZ⟩ ∧ (queued ++ ext).Nodup ∧
        (∀ j ∈ ext, Link ops d base cur j) ∧ ∀ j, toZ j ∈ nb :: nbs → Link ops d base cur j → j ∈ queued ++ ext := by
      intro h1 h2
      obtain ⟨ext, e1, e2, e3, e4⟩ := handleNeighbors_spec hl hlab hsmall hcur hact hL nbs hadj' q queued hnd hsub
      refine ⟨ext, by simp only [handleNeighbors, h1, e1], e2, e3, fun j hj hk => ?_⟩
      rcases List.mem_cons.1 hj with h | h
      · exact List.mem_append_left _ (h2 j h hk)
      · exact e4 j h hk
    by_cases hin : ∃ j, d.In j ∧ nb = toZ j
    · obtain ⟨j, hj, rfl⟩ := hin
      have hinj : ∀ k, toZ k = toZ j → k = j := fun k h => toZ_inj h
      have hFA : FaceAdj cur j := hadj j (by simp)
      by_cases hactj : ops.active j (base j) = true
      · have hg : getComponent ops d data (toZ j) = (ops.get (data j) : ℤ) := by
          rw [getComponent_toZ _ hj, ha j hj, if_pos hactj]
        have hu : toU32 (getComponent ops d data (toZ j)) = ops.get (data j) := by
          rw [hg, toU32_nat (hsmall j hj)]
        have hc : ops.conn cur j (data cur) (data j) = ops.conn cur j (base cur) (base j) := by
          rw [hlab cur hcur, hlab j hj, hl.conn_set]
        by_cases h0 : ops.get (data j) = 0
        · by_cases hconn : ops.conn cur j (base cur) (base j) = true
          · have hlink : Link ops d base cur j := ⟨hcur, hj, hact, hactj, hFA, hconn⟩
            by_cases hmem : j ∈ queued
            · apply skip
              · unfold handleNeighbor
                rw [if_pos (by rw [hu, h0]), areConnected_toZ _ hcur hj, hc, hconn]
                simp [toZ_mem_map, hmem]
              · intro k hk _
                rw [hinj k hk]; exact hmem
            · have hstep : handleNeighbor ops d data (toZ cur) (toZ j) ⟨q.map toZ, queued.map toZ⟩ =
                  some ⟨(q ++ [j]).map toZ, (queued ++ [j]).map toZ⟩ := by
                unfold handleNeighbor
                rw [if_pos (by rw [hu, h0]), areConnected_toZ _ hcur hj, hc, hconn]
                simp [toZ_mem_map, hmem]
              have hnd' : (queued ++ [j]).Nodup := by
                rw [List.nodup_append]
                refine ⟨hnd, by simp, ?_⟩
                rintro a ha b hb rfl
                simp only [List.mem_singleton] at hb
                subst hb; exact hmem ha
              obtain ⟨ext, e1, e2, e3, e4⟩ := handleNeighbors_spec hl hlab hsmall hcur hact hL nbs hadj' (q ++ [j])
                (queued ++ [j]) hnd' (fun k hk => List.mem_append_left _ (hsub k hk))
              refine ⟨j :: ext, ?_, ?_, ?_, ?_⟩
              · simp only [handleNeighbors, hstep, e1]; simp
              · simpa using e2
              · intro k hk
                rcases List.mem_cons.1 hk with rfl | hk
                · exact hlink
                · exact e3 k hk
              · intro k hk hk'
                rcases List.mem_cons.1 hk with h | h
                · rw [hinj k h]; simp
                · have := e4 k h hk'
                  simpa using this
          · apply skip
            · unfold handleNeighbor
              rw [if_pos (by rw [hu, h0]), areConnected_toZ _ hcur hj, hc]
              simp only [Bool.not_eq_true] at hconn
              rw [hconn]
            · intro k hk hlink
              rw [hinj k hk] at hlink
              exact absurd hlink.2.2.2.2.2 hconn
        · apply skip
          · unfold handleNeighbor
            rw [if_neg (by rw [hu]; exact h0)]
          · intro k hk hlink
            rw [hinj k hk] at hlink ⊢
            exact hsub j (hL j hlink h0)
      · apply skip
        · unfold handleNeighbor
          rw [if_neg]
          rw [getComponent_toZ _ hj, ha j hj, if_neg hactj, toU32_neg_one]
          decide
        · intro k hk hlink
          rw [hinj k hk] at hlink
          exact absurd hlink.2.2.2.1 hactj
    · apply skip
      · unfold handleNeighbor
        rw [if_neg]
        rw [getComponent_out _ hin, toU32_neg_one]
        decide
      · intro k hk hlink
        exact absurd ⟨k, hlink.2.1, hk.symm⟩ hin

/-- Number of cells. -/
theorem allIdx_length (d : Dims) : (allIdx d).length = d.nx * d.ny * d.nz := by
  simp [allIdx, Nat.mul_assoc]

theorem allIdx_nodup (d : Dims) : (allIdx d).Nodup := by
  unfold allIdx
  rw [List.nodup_flatMap]
  refine ⟨fun x _ => ?_, ?_⟩
  · rw [List.nodup_flatMap]
    refine ⟨fun y _ => ?_, ?_⟩
    · exact List.Nodup.map (fun a b h => by simpa using h) List.nodup_range
    · refine List.Pairwise.imp ?_ (List.nodup_range (n := d.ny))
      intro a b hab i ha hb
      simp only [List.mem_map] at ha hb
      obtain ⟨_, _, rfl⟩ := ha
      obtain ⟨_, _, h⟩ := hb
      simp only [Prod.mk.injEq] at h
      exact hab h.2.1.symm
  · refine List.Pairwise.imp ?_ (List.nodup_range (n := d.nx))
    intro a b hab i ha hb
    simp only [List.mem_flatMap, List.mem_map] at ha hb
    obtain ⟨_, _, _, _, rfl⟩ := ha
    obtain ⟨_, _, _, _, h⟩ := hb
    simp only [Prod.mk.injEq] at h
    exact hab h.1.symm

theorem length_le_of_in {l : List Idx} (hnd : l.Nodup) (hin : ∀ i ∈ l, d.In i) : l.length ≤ d.nx * d.ny * d.nz := by
  rw [← allIdx_length]
  exact (hnd.subperm fun i hi => mem_allIdx.2 (hin i hi)).length_le

/-- The search marks exactly the connectivity class of the start cell. -/
theorem markLoopCC_spec (hl : ops.Lawful) {base data0 : Idx → C} (hlab0 : Labelled ops d base data0)
    {label : ℕ} (hlabel : label < 2 ^ 32) (hlabel0 : label ≠ 0)
    (hsmall0 : ∀ i, d.In i → ops.get (data0 i) < 2 ^ 32)
    {start : Idx} (h0 : ∀ j, Relation.ReflTransGen (Link ops d base) start j → ops.get (data0 j) = 0) :
    ∀ (fuel : ℕ) (data : Idx → C) (done q : List Idx),
      (done ++ q).Nodup → (∀ i ∈ done ++ q, d.In i ∧ ops.active i (base i) = true ∧
        Relation.ReflTransGen (Link ops d base) start i) →
      (∀ i, data i = if i ∈ done then ops.set label (data0 i) else data0 i) →
      (∀ i ∈ done, ∀ j, Link ops d base i j → j ∈ done ++ q) →
      d.nx * d.ny * d.nz ≤ fuel + done.length →
      ∃ (data' : Idx → C) (done' : List Idx),
        markLoopCC ops d label fuel data ⟨q.map toZ, (done ++ q).map toZ⟩ done.length = some (data', done'.length) ∧
        done'.Nodup ∧ (∀ i ∈ done ++ q, i ∈ done') ∧
        (∀ i ∈ done', d.In i ∧ ops.active i (base i) = true ∧ Relation.ReflTransGen (Link ops d base) start i) ∧
        (∀ i, data' i = if i ∈ done' then ops.set label (data0 i) else data0 i) ∧
        (∀ i ∈ done', ∀ j, Link ops d base i j → j ∈ done')
  | fuel, data, done, [], hnd, hin, hdata, hcl, hfuel => by
    refine ⟨data, done, ?_, by simpa using hnd, by simp, by simpa using hin, hdata, by simpa using hcl⟩
    unfold markLoopCC
    simp
  | fuel, data, done, cur :: q, hnd, hin, hdata, hcl, hfuel => by
    have hcur := hin cur (by simp)
    have hlen := length_le_of_in hnd fun i hi => (hin i hi).1
    obtain ⟨fuel, rfl⟩ : ∃ f, fuel = f + 1 := by
      simp only [List.length_append, List.length_cons] at hlen
      exact ⟨fuel - 1, by omega⟩
    set data' := markComponent ops d data (toZ cur) label with hdata'
    have hcd : cur ∉ done := by
      have := List.nodup_append.1 hnd
      exact fun h => this.2.2 cur h cur (by simp) rfl
    have hd' : ∀ i, data' i = if i ∈ done ++ [cur] then ops.set label (data0 i) else data0 i := by
      intro i
      rw [hdata', markComponent_toZ _ hcur.1]
      simp only [hdata i, List.mem_append, List.mem_singleton]
      by_cases hi : i = cur
      · subst hi; simp [hcd]
      · simp [hi]
    have hget : ∀ i, ops.get (data' i) = if i ∈ done ++ [cur] then label else ops.get (data0 i) := by
      intro i; rw [hd' i]; split
      · rw [hl.get_set]
      · rfl
    have hlab : Labelled ops d base data' := by
      intro i hi
      rw [hget i, hd' i]
      split
      · rw [hlab0 i hi, hl.set_set]
      · exact hlab0 i hi
    have hsmall : ∀ i, d.In i → ops.get (data' i) < 2 ^ 32 := by
      intro i hi; rw [hget]; split
      · exact hlabel
      · exact hsmall0 i hi
    have hL : ∀ j, Link ops d base cur j → ops.get (data' j) ≠ 0 → j ∈ done ++ cur :: q := by
      intro j hj hne
      rw [hget] at hne
      split at hne
      · rename_i h
        simp only [List.mem_append, List.mem_cons] at h ⊢
        tauto
      · exact absurd (h0 j (hcur.2.2.tail hj)) hne
    obtain ⟨ext, e1, e2, e3, e4⟩ := handleNeighbors_spec hl hlab hsmall hcur.1 hcur.2.1 hL (sixNeighbors (toZ cur))
      (fun j hj => six_mem hj) q (done ++ cur :: q) hnd (fun _ h => h)
    have hre : done ++ cur :: q ++ ext = (done ++ [cur]) ++ (q ++ ext) := by simp
    rw [hre] at e1 e2 e4
    obtain ⟨data2, done2, r1, r2, r3, r4, r5, r6⟩ := markLoopCC_spec hl hlab0 hlabel hlabel0 hsmall0 h0 fuel data' (done ++ [cur])
      (q ++ ext) e2 (by
        intro i hi
        rw [← hre, List.mem_append] at hi
        rcases hi with hi | hi
        · exact hin i hi
        · have := e3 i hi
          exact ⟨this.2.1, this.2.2.2.1, hcur.2.2.tail this⟩) hd' (by
        intro i hi j hj
        rw [List.mem_append, List.mem_singleton] at hi
        rcases hi with hi | rfl
        · have := hcl i hi j hj
          rw [← hre]; exact List.mem_append_left _ this
        · exact e4 j (mem_six hj.2.2.2.2.1) hj) (by simp only [List.length_append, List.length_singleton]; omega)
    refine ⟨data2, done2, ?_, r2, fun i hi => r3 i (by rw [← hre]; exact List.mem_append_left _ hi), r4, r5, r6⟩
    rw [markLoopCC]
    simp only [List.map_cons]
    rw [← hdata', e1]
    simpa using r1

theorem markConnected_spec (hl : ops.Lawful) {base data : Idx → C} (hlab : Labelled ops d base data)
    {label : ℕ} (hlabel : label < 2 ^ 32) (hlabel0 : label ≠ 0)
    (hsmall : ∀ i, d.In i → ops.get (data i) < 2 ^ 32) {start : Idx} (hs : d.In start)
    (hact : ops.active start (base start) = true)
    (h0 : ∀ j, Relation.ReflTransGen (Link ops d base) start j → ops.get (data j) = 0) :
    ∃ (data' : Idx → C) (cls : List Idx), markConnected ops d data (toZ start) label = some (data', cls.length) ∧
      cls.Nodup ∧ (∀ i, i ∈ cls ↔ Relation.ReflTransGen (Link ops d base) start i) ∧
      (∀ i ∈ cls, d.In i ∧ ops.active i (base i) = true) ∧
      (∀ i, data' i = if i ∈ cls then ops.set label (data i) else data i) := by
  obtain ⟨data', cls, h1, h2, h3, h4, h5, h6⟩ := markLoopCC_spec hl hlab hlabel hlabel0 hsmall h0 (d.nx * d.ny * d.nz) data []
    [start] (by simp) (by simpa using ⟨hs, hact, Relation.ReflTransGen.refl⟩) (by simp) (by simp) (by simp)
  refine ⟨data', cls, by simpa [markConnected] using h1, h2, fun i => ⟨fun hi => (h4 i hi).2.2, fun hi => ?_⟩,
    fun i hi => ⟨(h4 i hi).1, (h4 i hi).2.1⟩, h5⟩
  induction hi with
  | refl => exact h3 start (by simp)
  | tail _ hb ih => exact h6 _ ih _ hb

theorem resetLabels_eq (hl : ops.Lawful) : ∀ (l : List Idx) (data : Idx → C), (∀ i ∈ l, d.In i) →
    resetLabels ops d l data = fun i => if i ∈ l then ops.set 0 (data i) else data i
  | [], data, _ => by simp [resetLabels]
  | i :: is, data, h => by
    rw [resetLabels, resetLabels_eq hl is _ fun j hj => h j (by simp [hj]), markComponent_toZ _ (h i (by simp))]
    funext j
    by_cases h1 : j = i <;> by_cases h2 : j ∈ is <;> simp [h1, h2, hl.set_set]

theorem link_joined (base : Idx → C) :
    Relation.ReflTransGen (Link ops d base) =
      Joined d (fun i => ops.active i (base i) = true) (fun i j => ops.conn i j (base i) (base j) = true) := rfl

theorem reach_symm (hl : ops.Lawful) {base : Idx → C} {i j : Idx} (h : Relation.ReflTransGen (Link ops d base) i j) :
    Relation.ReflTransGen (Link ops d base) j i := by
  induction h with
  | refl => exact .refl
  | tail _ hb ih => exact (Relation.ReflTransGen.single (hb.symm hl)).trans ih

theorem reach_in {base : Idx → C} {i j : Idx} (h : Relation.ReflTransGen (Link ops d base) i j) (hi : d.In i)
    (ha : ops.active i (base i) = true) : d.In j ∧ ops.active j (base j) = true := by
  induction h with
  | refl => exact ⟨hi, ha⟩
  | tail _ hb ih => exact ⟨hb.2.1, hb.2.2.2.1⟩

theorem allIdx_pairwise (d : Dims) : (allIdx d).Pairwise ScanLE := by
  unfold allIdx
  rw [List.pairwise_flatMap]
  refine ⟨fun x _ => ?_, ?_⟩
  · rw [List.pairwise_flatMap]
    refine ⟨fun y _ => ?_, ?_⟩
    · rw [List.pairwise_map]
      refine List.Pairwise.imp ?_ (List.pairwise_lt_range (n := d.nz))
      intro a b hab
      exact Or.inr ⟨rfl, Or.inr ⟨rfl, le_of_lt hab⟩⟩
    · refine List.Pairwise.imp ?_ (List.pairwise_lt_range (n := d.ny))
      intro a b hab i ha j hb
      simp only [List.mem_map] at ha hb
      obtain ⟨_, _, rfl⟩ := ha
      obtain ⟨_, _, rfl⟩ := hb
      exact Or.inr ⟨rfl, Or.inl hab⟩
  · refine List.Pairwise.imp ?_ (List.pairwise_lt_range (n := d.nx))
    intro a b hab i ha j hb
    simp only [List.mem_flatMap, List.mem_map] at ha hb
    obtain ⟨_, _, _, _, rfl⟩ := ha
    obtain ⟨_, _, _, _, rfl⟩ := hb
    exact Or.inl hab

/-- Invariant of the sweep: after the cells in `pre`. -/
structure SweepInv (ops : CompOps C) (d : Dims) (base : Idx → C) (pre : List Idx) (data : Idx → C) (marked n : ℕ) : Prop where
  lab : Labelled ops d base data
  out : ∀ i, ¬ d.In i → data i = base i
  le : ∀ i, d.In i → ops.get (data i) ≤ n
  inact : ∀ i, d.In i → ops.active i (base i) ≠ true → ops.get (data i) = 0
  pre_pos : ∀ i ∈ pre, ops.active i (base i) = true → 1 ≤ ops.get (data i)
  same : ∀ i j, d.In i → d.In j → 1 ≤ ops.get (data i) → ops.active i (base i) = true → ops.active j (base j) = true →
    (ops.get (data i) = ops.get (data j) ↔ Relation.ReflTransGen (Link ops d base) i j)
  order : ∀ l, 1 ≤ l → l ≤ n → ∃ i, d.In i ∧ ops.active i (base i) = true ∧ ops.get (data i) = l ∧
    ∀ j, d.In j → l ≤ ops.get (data j) ∨ (ops.get (data j) = 0 ∧ ops.active j (base j) = true) → ScanLE i j
  count : ∃ l : List Idx, l.Nodup ∧ l.length = marked ∧ ∀ i, i ∈ l ↔ d.In i ∧ 1 ≤ ops.get (data i)

theorem count_le {base data : Idx → C} {pre : List Idx} {marked n : ℕ} (h : SweepInv ops d base pre data marked n) :
    n ≤ marked ∧ marked ≤ d.nx * d.ny * d.nz := by
  obtain ⟨l, h1, h2, h3⟩ := h.count
  constructor
  · rw [← h2]
    have : (Finset.Icc 1 n) ⊆ (l.map fun i => ops.get (data i)).toFinset := by
      intro k hk
      rw [Finset.mem_Icc] at hk
      obtain ⟨i, hi, _, hg, _⟩ := h.order k hk.1 hk.2
      simp only [List.mem_toFinset, List.mem_map]
      exact ⟨i, (h3 i).2 ⟨hi, by omega⟩, hg⟩
    have := Finset.card_le_card this
    rw [Nat.card_Icc] at this
    have h' := List.toFinset_card_le (l.map fun i => ops.get (data i))
    rw [List.length_map] at h'
    omega
  · rw [← h2]; exact length_le_of_in h1 fun i hi => ((h3 i).1 hi).1

theorem SweepInv.done {base data : Idx → C} {pre : List Idx} {marked n : ℕ} (hinv : SweepInv ops d base pre data marked n)
    (hall : ∀ i, d.In i → ops.active i (base i) = true → 1 ≤ ops.get (data i)) :
    IsLabelling d (fun i => ops.active i (base i) = true) (fun i j => ops.conn i j (base i) (base j) = true)
      (fun i => ops.get (data i)) n where
  range := fun i hi ha => ⟨hall i hi ha, hinv.le i hi⟩
  zero := fun i hi ha => hinv.inact i hi ha
  onto := fun l h1 h2 => by
    obtain ⟨i, a, b, c, _⟩ := hinv.order l h1 h2
    exact ⟨i, a, b, c⟩
  same := fun i j hi hj ha hb => hinv.same i j hi hj (hall i hi ha) ha hb
  order := fun l h1 h2 => by
    obtain ⟨i, a, b, c, e⟩ := hinv.order l h1 h2
    exact ⟨i, a, b, c, fun j hj hl => e j hj (Or.inl hl)⟩

theorem sweepCC_spec (hl : ops.Lawful) {base : Idx → C} (hN : d.nx * d.ny * d.nz < 2 ^ 32) :
    ∀ (post pre : List Idx) (data : Idx → C) (marked n : ℕ), allIdx d = pre ++ post →
      SweepInv ops d base pre data marked n →
      ∃ (data' : Idx → C) (n' : ℕ), sweepCC ops d (d.nx * d.ny * d.nz) post data marked n = some (data', n') ∧
        (∀ i, ¬ d.In i → data' i = base i) ∧ Labelled ops d base data' ∧
        IsLabelling d (fun i => ops.active i (base i) = true) (fun i j => ops.conn i j (base i) (base j) = true)
          (fun i => ops.get (data' i)) n'
  | [], pre, data, marked, n, hall, hinv => by
    refine ⟨data, n, rfl, hinv.out, hinv.lab, hinv.done fun i hi ha => hinv.pre_pos i ?_ ha⟩
    have := mem_allIdx.2 hi
    rw [hall, List.append_nil] at this
    exact this
  | i :: post, pre, data, marked, n, hall, hinv => by
    have hi : d.In i := mem_allIdx.1 (by rw [hall]; simp)
    have hact : ops.active i (data i) = ops.active i (base i) := by rw [hinv.lab i hi, hl.active_set]
    have hall' : allIdx d = (pre ++ [i]) ++ post := by rw [hall]; simp
    have hcnt := count_le hinv
    by_cases hg : getComponent ops d data (toZ i) = 0
    · have hg' : ops.active i (base i) = true ∧ ops.get (data i) = 0 := by
        rw [getComponent_toZ _ hi, hact] at hg
        split at hg
        · rename_i h; exact ⟨h, by exact_mod_cast hg⟩
        · omega
      obtain ⟨ha, hz⟩ := hg'
      have hclass : ∀ j, Relation.ReflTransGen (Link ops d base) i j → ops.get (data j) = 0 := by
        intro j hj
        by_contra hne
        have hjin := reach_in hj hi ha
        have := (hinv.same j i hjin.1 hi (by omega) hjin.2 ha).2 (reach_symm hl hj)
        omega
      have hlt : n + 1 < 2 ^ 32 := by
        have : marked < d.nx * d.ny * d.nz := by
          obtain ⟨l, h1, h2, h3⟩ := hinv.count
          have hil : i ∉ l := fun h => by have := ((h3 i).1 h).2; omega
          have := length_le_of_in (d := d) (l := i :: l) (List.nodup_cons.2 ⟨hil, h1⟩) (by
            intro k hk
            rcases List.mem_cons.1 hk with rfl | hk
            · exact hi
            · exact ((h3 k).1 hk).1)
          rw [List.length_cons] at this
          omega
        omega
      have hmod : (n + 1) % 2 ^ 32 = n + 1 := Nat.mod_eq_of_lt hlt
      obtain ⟨data', cls, c1, c2, c3, c4, c5⟩ := markConnected_spec (label := n + 1) hl hinv.lab hlt (by omega)
        (fun j hj => lt_of_le_of_lt (hinv.le j hj) (by omega)) hi ha hclass
      have hget : ∀ j, ops.get (data' j) = if j ∈ cls then n + 1 else ops.get (data j) := by
        intro j; rw [c5 j]; split
        · rw [hl.get_set]
        · rfl
      have hicls : i ∈ cls := (c3 i).2 .refl
      have hinv' : SweepInv ops d base (pre ++ [i]) data' (marked + cls.length) (n + 1) := {
        lab := by
          intro j hj
          rw [hget, c5]
          split
          · rw [hinv.lab j hj, hl.set_set]
          · exact hinv.lab j hj
        out := by
          intro j hj
          rw [c5, if_neg fun h => hj (c4 j h).1, hinv.out j hj]
        le := by
          intro j hj
          rw [hget]
          have := hinv.le j hj
          split <;> omega
        inact := by
          intro j hj hna
          rw [hget, if_neg fun h => hna (c4 j h).2]
          exact hinv.inact j hj hna
        pre_pos := by
          intro j hj haj
          rw [hget]
          split
          · omega
          · rename_i h
            rw [List.mem_append, List.mem_singleton] at hj
            rcases hj with hj | rfl
            · exact hinv.pre_pos j hj haj
            · exact absurd hicls h
        same := by
          intro j k hj hk hpos haj hak
          rw [hget] at hpos ⊢
          rw [hget]
          have hjn := hinv.le j hj
          have hkn := hinv.le k hk
          by_cases h1 : j ∈ cls <;> by_cases h2 : k ∈ cls
          · simp only [h1, h2, if_true, true_iff]
            exact (reach_symm hl ((c3 j).1 h1)).trans ((c3 k).1 h2)
          · simp only [h1, h2, if_true, if_false]
            constructor
            · intro h; omega
            · intro h
              exact absurd ((c3 k).2 (((c3 j).1 h1).trans h)) h2
          · simp only [h1, h2, if_true, if_false]
            constructor
            · intro h; omega
            · intro h
              exact absurd ((c3 j).2 (((c3 k).1 h2).trans (reach_symm hl h))) h1
          · simp only [h1, if_false] at hpos
            simp only [h1, h2, if_false]
            exact hinv.same j k hj hk hpos haj hak
        order := by
          intro l h1 h2
          rcases Nat.lt_or_ge n l with h | h
          · have hln : l = n + 1 := by omega
            subst hln
            refine ⟨i, hi, ha, by rw [hget, if_pos hicls], fun j hj hc => ?_⟩
            have hjpost : j ∈ i :: post := by
              have := mem_allIdx.2 hj
              rw [hall, List.mem_append] at this
              rcases this with h | h
              · exfalso
                rw [hget] at hc
                have hle := hinv.le j hj
                by_cases hjc : j ∈ cls
                · have hz' := hclass j ((c3 j).1 hjc)
                  have := hinv.pre_pos j h (c4 j hjc).2
                  omega
                · rw [if_neg hjc] at hc
                  rcases hc with hc | ⟨hc, hc'⟩
                  · omega
                  · have := hinv.pre_pos j h hc'
                    omega
              · exact h
            rcases List.mem_cons.1 hjpost with rfl | hjp
            · exact Or.inr ⟨rfl, Or.inr ⟨rfl, le_refl _⟩⟩
            · have hp := allIdx_pairwise d
              rw [hall, List.pairwise_append] at hp
              exact (List.pairwise_cons.1 hp.2.1).1 j hjp
          · obtain ⟨k, k1, k2, k3, k4⟩ := hinv.order l h1 h
            have hkc : k ∉ cls := fun hh => by
              have := hclass k ((c3 k).1 hh)
              omega
            refine ⟨k, k1, k2, by rw [hget, if_neg hkc, k3], fun j hj hc => k4 j hj ?_⟩
            rw [hget] at hc
            by_cases hjc : j ∈ cls
            · exact Or.inr ⟨hclass j ((c3 j).1 hjc), (c4 j hjc).2⟩
            · rwa [if_neg hjc] at hc
        count := by
          obtain ⟨l, l1, l2, l3⟩ := hinv.count
          refine ⟨l ++ cls, ?_, by simp [l2], fun j => ?_⟩
          · rw [List.nodup_append]
            refine ⟨l1, c2, ?_⟩
            rintro a hal b hbc rfl
            have := ((l3 a).1 hal).2
            have := hclass a ((c3 a).1 hbc)
            omega
          · rw [List.mem_append, l3, hget]
            by_cases hjc : j ∈ cls
            · simp [hjc, (c4 j hjc).1]
            · simp [hjc] }
      rw [sweepCC, if_pos hg, hmod]
      simp only [c1]
      by_cases htot : marked + cls.length = d.nx * d.ny * d.nz
      · rw [if_pos htot]
        refine ⟨data', n + 1, rfl, hinv'.out, hinv'.lab, hinv'.done fun j hj _ => ?_⟩
        obtain ⟨l, l1, l2, l3⟩ := hinv'.count
        have hsub : l.Subperm (allIdx d) := l1.subperm fun k hk => mem_allIdx.2 ((l3 k).1 hk).1
        have hperm := hsub.perm_of_length_le (by rw [allIdx_length, l2, htot])
        exact ((l3 j).1 (hperm.mem_iff.2 (mem_allIdx.2 hj))).2
      · rw [if_neg htot]
        exact sweepCC_spec hl hN post (pre ++ [i]) data' (marked + cls.length) (n + 1) hall' hinv'
    · rw [sweepCC, if_neg hg]
      refine sweepCC_spec hl hN post (pre ++ [i]) data marked n hall' { hinv with pre_pos := ?_ }
      intro j hj haj
      rw [List.mem_append, List.mem_singleton] at hj
      rcases hj with hj | rfl
      · exact hinv.pre_pos j hj haj
      · rw [getComponent_toZ _ hi, hact, if_pos haj] at hg
        omega

/-- `ComputeConnectedComponents` always finishes without an exception and produces the correct labelling;
nothing but labels is changed. -/
theorem computeCC_spec (hl : ops.Lawful) (data : Idx → C) (hN : d.nx * d.ny * d.nz < 2 ^ 32) :
    ∃ (data' : Idx → C) (n : ℕ), computeCC ops d data = some (data', n) ∧ (∀ i, ¬ d.In i → data' i = data i) ∧
      (∀ i, d.In i → data' i = ops.set (ops.get (data' i)) (data i)) ∧
      IsLabelling d (fun i => ops.active i (data i) = true) (fun i j => ops.conn i j (data i) (data j) = true)
        (fun i => ops.get (data' i)) n := by
  have hreset : ∀ i, resetLabels ops d (allIdx d) data i = if d.In i then ops.set 0 (data i) else data i := by
    intro i
    rw [resetLabels_eq hl _ _ fun i hi => mem_allIdx.1 hi]
    simp only [mem_allIdx]
  have hget : ∀ i, d.In i → ops.get (resetLabels ops d (allIdx d) data i) = 0 := by
    intro i hi; rw [hreset, if_pos hi, hl.get_set]
  obtain ⟨data', n, h1, h2, h3, h4⟩ := sweepCC_spec (base := data) hl hN (allIdx d) [] (resetLabels ops d (allIdx d) data) 0 0 rfl {
    lab := by intro i hi; rw [hget i hi, hreset, if_pos hi]
    out := by intro i hi; rw [hreset, if_neg hi]
    le := by intro i hi; rw [hget i hi]
    inact := fun i hi _ => hget i hi
    pre_pos := by simp
    same := by intro i j hi _ h; rw [hget i hi] at h; omega
    order := by intro l h1 h2; omega
    count := ⟨[], by simp, rfl, by
      intro i
      simp only [List.not_mem_nil, false_iff, not_and]
      intro hi; rw [hget i hi]; omega⟩ }
  exact ⟨data', n, h1, h2, h3, h4⟩

end
end VGT
