import Verif.Model.Voxelize
import Verif.Lemmas.Par
import Verif.Lemmas.Filter
import Verif.Lemmas.Raycast
import Mathlib.Data.List.Perm.Basic

set_option autoImplicit false
set_option linter.unusedSectionVars false

namespace VGT
open VGT.EDT VGT.Par

/-! ### The filter loop -/

/-- Value of cell `v` after the filter. -/
def newVal (cell : ℕ → Fl → Option (Option Fl)) (m : ℕ → Fl) (v : ℕ) : Fl := ((cell v (m v)).getD none).getD (m v)

theorem filterWork_run (cell : ℕ → Fl → Option (Option Fl)) (v : ℕ) (m : ℕ → Fl) :
    (filterWork cell v).run m = if (cell v (m v)).isSome then some (Function.update m v (newVal cell m v)) else none := by
  unfold filterWork newVal
  simp only [Prog.run]
  cases h : cell v (m v) with
  | none => simp [Prog.run]
  | some r =>
    cases r with
    | none => simp [Prog.run]
    | some x =>
      simp only [Prog.run, Option.isSome_some, if_true, Option.getD_some, Option.some.injEq]
      funext j
      simp only [Prog.set, Function.update_apply]

theorem filterThread_run (cell : ℕ → Fl → Option (Option Fl)) : ∀ (vs : List ℕ) (m : ℕ → Fl), vs.Nodup →
    ((∃ v ∈ vs, cell v (m v) = none) → (filterThread cell vs).run m = none) ∧
    ((∀ v ∈ vs, (cell v (m v)).isSome) → (filterThread cell vs).run m =
      some fun v => if v ∈ vs then newVal cell m v else m v)
  | [], m, _ => by
    constructor
    · rintro ⟨v, hv, _⟩
      simp at hv
    · intro _
      simp [filterThread, Prog.run]
  | v :: vs, m, hnd => by
    have hv : v ∉ vs := (List.nodup_cons.1 hnd).1
    have ih := filterThread_run cell vs (Function.update m v (newVal cell m v)) (List.nodup_cons.1 hnd).2
    have hne : ∀ w ∈ vs, w ≠ v := fun w hw h => hv (h ▸ hw)
    unfold filterThread
    rw [run_andThen, filterWork_run]
    constructor
    · rintro ⟨w, hw, hn⟩
      by_cases hs : (cell v (m v)).isSome
      · rw [if_pos hs, Option.bind_some]
        apply ih.1
        rcases List.mem_cons.1 hw with rfl | hw
        · rw [hn] at hs; cases hs
        · exact ⟨w, hw, by rw [Function.update_of_ne (hne w hw)]; exact hn⟩
      · rw [if_neg hs]; rfl
    · intro hall
      rw [if_pos (hall v (by simp)), Option.bind_some, ih.2 (by
        intro w hw
        rw [Function.update_of_ne (hne w hw)]
        exact hall w (List.mem_cons_of_mem _ hw))]
      congr 1
      funext w
      by_cases hwv : w = v
      · subst hwv
        simp [hv]
      · have : Function.update m v (newVal cell m v) w = m w := Function.update_of_ne hwv _ _
        have h2 : newVal cell (Function.update m v (newVal cell m v)) w = newVal cell m w := by
          show ((cell w (Function.update m v (newVal cell m v) w)).getD none).getD (Function.update m v (newVal cell m v) w) = _
          rw [this]
          rfl
        simp only [List.mem_cons, hwv, false_or, this, h2]

theorem filterThread_foot (cell : ℕ → Fl → Option (Option Fl)) : ∀ (vs : List ℕ),
    (filterThread cell vs).InFoot (fun v => v ∈ vs)
  | [] => trivial
  | v :: vs => by
    unfold filterThread
    refine Prog.InFoot.andThen ((filterThread_foot cell vs).mono fun w hw => List.mem_cons_of_mem _ hw) ?_
    unfold filterWork
    refine ⟨by simp, fun occ => ?_⟩
    beta_reduce
    cases cell v occ with
    | none => trivial
    | some r =>
      cases r with
      | none => trivial
      | some x => exact ⟨by simp, trivial⟩

/-- Cells of thread `t`. -/
def splitOf (split : List (List ℕ)) (t : ℕ) (v : ℕ) : Prop := ∃ vs, split[t]? = some vs ∧ v ∈ vs

theorem splitOf_disjoint {N : ℕ} {split : List (List ℕ)} (hs : IsSplit N split) :
    ∀ t t' v, t ≠ t' → splitOf split t v → ¬ splitOf split t' v := by
  rintro t t' v hne ⟨is, his, hi⟩ ⟨js, hjs, hj⟩
  have hnd : split.flatten.Nodup := hs.nodup_iff.2 List.nodup_range
  rw [List.nodup_flatten] at hnd
  have hpw := List.pairwise_iff_getElem.1 hnd.2
  obtain ⟨ht, h1⟩ := List.getElem?_eq_some_iff.1 his
  obtain ⟨ht', h2⟩ := List.getElem?_eq_some_iff.1 hjs
  rcases Nat.lt_or_ge t t' with hlt | hge
  · have := hpw t t' ht ht' hlt
    rw [h1, h2] at this
    exact this hi hj
  · have := hpw t' t ht' ht (by omega)
    rw [h1, h2] at this
    exact this hj hi

theorem splitThreads_foot (cell : ℕ → Fl → Option (Option Fl)) (split : List (List ℕ)) : ∀ (t : ℕ) (p : Prog ℕ Fl),
    (split.map (filterThread cell))[t]? = some p → p.InFoot (splitOf split t) := by
  intro t p hp
  rw [List.getElem?_map] at hp
  cases his : split[t]? with
  | none => rw [his] at hp; simp at hp
  | some is =>
    rw [his] at hp
    simp at hp
    rw [← hp]
    exact (filterThread_foot cell is).mono fun v h => ⟨is, his, h⟩

theorem filterRuns_imp {cell : ℕ → Fl → Option (Option Fl)} {N : ℕ} {occ occ' : ℕ → Fl}
    (h : FilterRuns cell N occ occ') :
    (∀ v < N, (cell v (occ v)).isSome) ∧ occ' = fun v => if v < N then newVal cell occ v else occ v := by
  obtain ⟨split, hs, sched, hfin, hmem⟩ := h
  have hI := interleave (splitOf_disjoint hs) (splitThreads_foot cell split) sched hfin
  rw [hmem] at hI
  have hnd : split.flatten.Nodup := hs.nodup_iff.2 List.nodup_range
  have key : ∀ v < N, (cell v (occ v)).isSome ∧ occ' v = newVal cell occ v := by
    intro v hv
    obtain ⟨is, his, hvis⟩ := List.mem_flatten.1 (hs.mem_iff.2 (List.mem_range.2 hv))
    obtain ⟨t, ht, htis⟩ := List.mem_iff_getElem.1 his
    have hget : split[t]? = some is := by rw [List.getElem?_eq_getElem ht, htis]
    obtain ⟨m1, h1, h2⟩ := hI.1 t (filterThread cell is) (by simp [hget])
    have hr := filterThread_run cell is occ ((List.nodup_flatten.1 hnd).1 is his)
    have hall : ∀ w ∈ is, (cell w (occ w)).isSome := by
      intro w hw
      cases hc : cell w (occ w) with
      | none => rw [hr.1 ⟨w, hw, hc⟩] at h1; cases h1
      | some _ => rfl
    rw [hr.2 hall] at h1
    cases h1
    refine ⟨hall v hvis, ?_⟩
    have := h2 v ⟨is, hget, hvis⟩
    beta_reduce at this
    rw [if_pos hvis] at this
    exact this
  refine ⟨fun v hv => (key v hv).1, ?_⟩
  funext v
  by_cases hv : v < N
  · rw [if_pos hv]; exact (key v hv).2
  · rw [if_neg hv]
    apply hI.2
    rintro t ht ⟨is, his, hvis⟩
    exact hv (List.mem_range.1 (hs.mem_iff.1 (List.mem_flatten.2 ⟨is, List.mem_of_getElem? his, hvis⟩)))

theorem filterRuns_iff {cell : ℕ → Fl → Option (Option Fl)} {N : ℕ} {occ occ' : ℕ → Fl} :
    FilterRuns cell N occ occ' ↔
    (∀ v < N, (cell v (occ v)).isSome) ∧ occ' = fun v => if v < N then newVal cell occ v else occ v := by
  refine ⟨filterRuns_imp, ?_⟩
  rintro ⟨hall, rfl⟩
  have hs : IsSplit N [List.range N] := by unfold IsSplit; simp
  obtain ⟨sched, hsched⟩ := can_finish (splitOf_disjoint hs) (threads := [List.range N].map (filterThread cell)) (m := occ) (by
    intro t p hp
    have hp' : p = filterThread cell (List.range N) := by
      have := List.mem_of_getElem? hp
      simpa using this
    rw [hp', (filterThread_run cell (List.range N) occ List.nodup_range).2
      (fun v hv => hall v (List.mem_range.1 hv))]
    exact ⟨_, rfl⟩) _ _ (iinv_init (splitThreads_foot cell [List.range N])) le_rfl (by intro t p ht; omega)
  have hrun : FilterRuns cell N occ (runSched { threads := [List.range N].map (filterThread cell), mem := occ } sched).mem :=
    ⟨[List.range N], hs, sched, hsched, rfl⟩
  have := (filterRuns_imp hrun).2
  rw [← this]
  exact hrun

/-! ### The tracking grids -/

/-- The mark counts as free / filled at data index `v`. -/
def isFreeAt (d : Dims) (v : ℕ) : Mark → Bool
  | .free i => dataIndex d i = v
  | .filled _ => false
@[inherit_doc isFreeAt] def isFilledAt (d : Dims) (v : ℕ) : Mark → Bool
  | .free _ => false
  | .filled i => dataIndex d i = v

/-- Tracking grid after the given marks. -/
def trackOf (d : Dims) (ms : List Mark) : Track := fun v =>
  (wrap32 (ms.countP (isFreeAt d v)), wrap32 (ms.countP (isFilledAt d v)))

theorem wrap32_add (x y : ℤ) : wrap32 (wrap32 x + y) = wrap32 (x + y) := by
  unfold wrap32
  congr 1
  have : (x + 2 ^ 31) % 2 ^ 32 - 2 ^ 31 + y + 2 ^ 31 = (x + 2 ^ 31) % 2 ^ 32 + y := by ring
  rw [this, Int.emod_add_emod]
  congr 1; ring

theorem wrap32_small {x : ℤ} (h0 : 0 ≤ x) (h1 : x < 2 ^ 31) : wrap32 x = x := by
  unfold wrap32; omega

theorem trackOf_perm {d : Dims} {a b : List Mark} (h : a.Perm b) : trackOf d a = trackOf d b := by
  funext v
  unfold trackOf
  rw [h.countP_eq, h.countP_eq]

theorem trackOf_concat (d : Dims) (ms : List Mark) (m : Mark) : trackOf d (ms ++ [m]) = addMark d (trackOf d ms) m := by
  funext v
  cases m with
  | free i =>
    unfold addMark trackOf
    simp only
    by_cases h : v = dataIndex d i
    · subst h
      simp [isFreeAt, isFilledAt, wrap32_add]
    · rw [Function.update_of_ne h]
      have h' : dataIndex d i ≠ v := fun e => h e.symm
      simp [isFreeAt, isFilledAt, h']
  | filled i =>
    unfold addMark trackOf
    simp only
    by_cases h : v = dataIndex d i
    · subst h
      simp [isFreeAt, isFilledAt, wrap32_add]
    · rw [Function.update_of_ne h]
      have h' : dataIndex d i ≠ v := fun e => h e.symm
      simp [isFreeAt, isFilledAt, h']

theorem trackOf_nil (d : Dims) : trackOf d [] = fun _ => (0, 0) := by
  funext v; simp [trackOf, wrap32]

theorem set_flatten_perm {α : Type} : ∀ (ls : List (List α)) (t : ℕ) (m : α) (ms : List α), ls[t]? = some (m :: ms) →
    ls.flatten.Perm (m :: (ls.set t ms).flatten)
  | [], t, m, ms, h => by simp at h
  | l :: ls, 0, m, ms, h => by
    simp at h
    subst h
    simp
  | l :: ls, t + 1, m, ms, h => by
    simp at h
    have ih := set_flatten_perm ls t m ms h
    simp only [List.set_cons_succ, List.flatten_cons]
    exact (ih.append_left l).trans List.perm_middle

theorem marks_run {d : Dims} {marks : List (List Mark)} : ∀ (sched : List ℕ) (s : List (List Mark) × Track) (done : List Mark),
    s.2 = trackOf d done → (done ++ s.1.flatten).Perm marks.flatten →
    ∃ done', (sched.foldl (markStep d) s).2 = trackOf d done' ∧
      (done' ++ (sched.foldl (markStep d) s).1.flatten).Perm marks.flatten
  | [], s, done, h1, h2 => ⟨done, h1, h2⟩
  | t :: ts, s, done, h1, h2 => by
    rw [List.foldl_cons]
    unfold markStep
    cases hs : s.1[t]? with
    | none => exact marks_run ts s done h1 h2
    | some l =>
      cases l with
      | nil => exact marks_run ts s done h1 h2
      | cons m ms =>
        refine marks_run ts _ (done ++ [m]) ?_ ?_
        · simp only [h1, trackOf_concat]
        · simp only [List.append_assoc, List.singleton_append]
          exact ((set_flatten_perm s.1 t m ms hs).symm.append_left done).trans h2

section
variable {K : Type} [Field K] [LinearOrder K] [IsStrictOrderedRing K] [FloorRing K]

theorem threadMarks_eq (d : Dims) (s : K) (norm : Vec K → K) (c : Cloud K) : ∀ is : List ℕ,
    threadMarks d s norm c is = if ∀ i ∈ is, (pointMarks d s norm c (c.points.getD i none)).isSome then
      some (is.flatMap fun i => (pointMarks d s norm c (c.points.getD i none)).getD []) else none
  | [] => by simp [threadMarks]
  | i :: is => by
    unfold threadMarks
    rw [threadMarks_eq d s norm c is]
    cases h : pointMarks d s norm c (c.points.getD i none) with
    | none =>
      have hno : ¬ ∀ j ∈ i :: is, (pointMarks d s norm c (c.points.getD j none)).isSome = true := by
        intro h'
        have := h' i (List.mem_cons_self)
        rw [h] at this
        cases this
      rw [if_neg hno]
      rfl
    | some ms =>
      by_cases hall : ∀ j ∈ is, (pointMarks d s norm c (c.points.getD j none)).isSome
      · rw [if_pos hall, if_pos (by
          intro j hj
          rcases List.mem_cons.1 hj with rfl | hj
          · rw [h]; rfl
          · exact hall j hj)]
        simp only [Option.bind_some, Option.map_some, List.flatMap_cons, h, Option.getD_some]
      · rw [if_neg hall, if_neg (fun h' => hall fun j hj => h' j (List.mem_cons_of_mem _ hj))]
        rfl

/-- All marks of a cloud. -/
def cloudMarks (d : Dims) (s : K) (norm : Vec K → K) (c : Cloud K) : List Mark :=
  c.points.flatMap fun p => (pointMarks d s norm c p).getD []

/-- No point of the cloud is undefined behaviour. -/
def CloudOk (d : Dims) (s : K) (norm : Vec K → K) (c : Cloud K) : Prop :=
  ∀ p ∈ c.points, (pointMarks d s norm c p).isSome

theorem range_flatMap_getD {α β : Type} (l : List α) (x : α) (f : α → List β) :
    (List.range l.length).flatMap (fun i => f (l.getD i x)) = l.flatMap f := by
  have : (List.range l.length).map (fun i => l.getD i x) = l := by
    apply List.ext_getElem
    · simp
    · intro i h1 h2
      simp [List.getD, h2]
  calc (List.range l.length).flatMap (fun i => f (l.getD i x))
      = ((List.range l.length).map (fun i => l.getD i x)).flatMap f := by rw [List.flatMap_map]
    _ = l.flatMap f := by rw [this]

theorem flatten_map_flatMap {α β : Type} (f : α → List β) : ∀ ls : List (List α),
    (ls.map fun l => l.flatMap f).flatten = ls.flatten.flatMap f
  | [] => rfl
  | l :: ls => by simp [List.flatMap_append, flatten_map_flatMap f ls]

theorem cloudRuns_imp {d : Dims} {s : K} {norm : Vec K → K} {c : Cloud K} {tr : Track} (h : CloudRuns d s norm c tr) :
    CloudOk d s norm c ∧ tr = trackOf d (cloudMarks d s norm c) := by
  obtain ⟨split, hs, marks, hmarks, sched, hfin, rfl⟩ := h
  have hall : ∀ is ∈ split, ∀ i ∈ is, (pointMarks d s norm c (c.points.getD i none)).isSome := by
    intro is his
    have : threadMarks d s norm c is ∈ marks.map some := by rw [← hmarks]; exact List.mem_map_of_mem his
    rw [threadMarks_eq] at this
    by_contra hno
    rw [if_neg hno] at this
    simp at this
  have hm : marks = split.map fun is => is.flatMap fun i => (pointMarks d s norm c (c.points.getD i none)).getD [] := by
    have e : split.map (threadMarks d s norm c) =
        (split.map fun is => is.flatMap fun i => (pointMarks d s norm c (c.points.getD i none)).getD []).map some := by
      rw [List.map_map]
      apply List.map_congr_left
      intro is his
      rw [threadMarks_eq, if_pos (hall is his)]
      rfl
    rw [e] at hmarks
    exact (List.map_injective_iff.2 (Option.some_injective _) hmarks).symm
  obtain ⟨done, h1, h2⟩ := marks_run (d := d) (marks := marks) sched (marks, fun _ => (0, 0)) [] (trackOf_nil d).symm
    (List.Perm.refl _)
  have hnil : (sched.foldl (markStep d) (marks, fun _ => (0, 0))).1.flatten = [] := by
    rw [List.flatten_eq_nil_iff]; exact hfin
  rw [hnil, List.append_nil] at h2
  refine ⟨?_, ?_⟩
  · intro p hp
    obtain ⟨i, hi, rfl⟩ := List.mem_iff_getElem.1 hp
    obtain ⟨is, his, hiis⟩ := List.mem_flatten.1 (hs.mem_iff.2 (List.mem_range.2 hi))
    have := hall is his i hiis
    simpa [List.getD, hi] using this
  · rw [h1]
    apply trackOf_perm
    refine h2.trans ?_
    have e : marks.flatten = split.flatten.flatMap fun i => (pointMarks d s norm c (c.points.getD i none)).getD [] := by
      rw [hm]
      exact flatten_map_flatMap _ split
    rw [e]
    unfold cloudMarks
    rw [← range_flatMap_getD c.points none]
    exact List.Perm.flatMap_right _ hs

theorem single_thread (d : Dims) : ∀ (ms : List Mark) (tr : Track),
    (List.replicate ms.length 0).foldl (markStep d) ([ms], tr) = ([[]], ms.foldl (addMark d) tr)
  | [], tr => rfl
  | m :: ms, tr => by
    simp only [List.length_cons, List.replicate_succ, List.foldl_cons]
    have : markStep d ([m :: ms], tr) 0 = ([ms], addMark d tr m) := rfl
    rw [this, single_thread d ms]

theorem cloudRuns_iff {d : Dims} {s : K} {norm : Vec K → K} {c : Cloud K} {tr : Track} : CloudRuns d s norm c tr ↔
    CloudOk d s norm c ∧ tr = trackOf d (cloudMarks d s norm c) := by
  refine ⟨cloudRuns_imp, ?_⟩
  rintro ⟨hok, rfl⟩
  have hall : ∀ i ∈ List.range c.points.length, (pointMarks d s norm c (c.points.getD i none)).isSome := by
    intro i hi
    rw [List.mem_range] at hi
    have := hok _ (List.getElem_mem hi)
    simpa [List.getD, hi] using this
  have hrun : CloudRuns d s norm c ((cloudMarks d s norm c).foldl (addMark d) fun _ => (0, 0)) := by
    refine ⟨[List.range c.points.length], by unfold IsSplit; simp, [cloudMarks d s norm c], ?_,
      List.replicate (cloudMarks d s norm c).length 0, ?_, ?_⟩
    · simp only [List.map_cons, List.map_nil]
      rw [threadMarks_eq, if_pos hall]
      unfold cloudMarks
      rw [← range_flatMap_getD c.points none]
    · rw [single_thread]; simp
    · rw [single_thread]
  rw [← (cloudRuns_imp hrun).2]
  exact hrun

/-- The filter applied to the first `N` cells. -/
def filterData (cell : ℕ → Fl → Option (Option Fl)) (N : ℕ) (occ : ℕ → Fl) : ℕ → Fl :=
  fun v => if v < N then newVal cell occ v else occ v

/-- The hit counts of all cameras at data index `v`. -/
def hits (d : Dims) (s : K) (norm : Vec K → K) (clouds : List (Cloud K)) (v : ℕ) : List (ℤ × ℤ) :=
  clouds.map fun c => trackOf d (cloudMarks d s norm c) v

/-- Everything the CPU voxelizer can leave behind. -/
theorem cpuRuns_iff {norm : Vec K → K} {static : VoxMap K} {o : FilterOptions} {clouds : List (Cloud K)}
    {output output' : VoxMap K} : CpuVoxelizeRuns norm static o clouds output output' ↔
    (∀ c ∈ clouds, CloudOk static.dims static.cellSize norm c) ∧
    (∀ v < output.dims.total,
      (o.filterCell (hits static.dims static.cellSize norm clouds v) (output.data v)).isSome) ∧
    output' = { output with
      data := filterData (fun v => o.filterCell (hits static.dims static.cellSize norm clouds v)) output.dims.total
        output.data } := by
  unfold CpuVoxelizeRuns
  have hfa : ∀ tracks : List Track, List.Forall₂ (CloudRuns static.dims static.cellSize norm) clouds tracks ↔
      (∀ c ∈ clouds, CloudOk static.dims static.cellSize norm c) ∧
      tracks = clouds.map fun c => trackOf static.dims (cloudMarks static.dims static.cellSize norm c) := by
    induction clouds with
    | nil => intro tracks; simp
    | cons c cs ih =>
      intro tracks
      constructor
      · intro h
        cases h with
        | cons h1 h2 =>
          obtain ⟨a, b⟩ := cloudRuns_iff.1 h1
          obtain ⟨a', b'⟩ := (ih _).1 h2
          subst b b'
          refine ⟨?_, rfl⟩
          intro x hx
          rcases List.mem_cons.1 hx with rfl | hx
          · exact a
          · exact a' x hx
      · rintro ⟨h1, rfl⟩
        refine List.Forall₂.cons (cloudRuns_iff.2 ⟨h1 c (by simp), rfl⟩) ((ih _).2 ⟨fun x hx => h1 x (List.mem_cons_of_mem _ hx), rfl⟩)
  constructor
  · rintro ⟨tracks, h1, data', h2, rfl⟩
    obtain ⟨a, rfl⟩ := (hfa _).1 h1
    obtain ⟨b, rfl⟩ := filterRuns_iff.1 h2
    have e : ∀ v, (clouds.map fun c => trackOf static.dims (cloudMarks static.dims static.cellSize norm c)).map (fun tr => tr v) =
        hits static.dims static.cellSize norm clouds v := by
      intro v; rw [List.map_map]; rfl
    simp only [e] at b ⊢
    exact ⟨a, b, rfl⟩
  · rintro ⟨a, b, rfl⟩
    have e : ∀ v, (clouds.map fun c => trackOf static.dims (cloudMarks static.dims static.cellSize norm c)).map (fun tr => tr v) =
        hits static.dims static.cellSize norm clouds v := by
      intro v; rw [List.map_map]; rfl
    refine ⟨_, (hfa _).2 ⟨a, rfl⟩, _, filterRuns_iff.2 ⟨?_, rfl⟩, ?_⟩
    · intro v hv
      rw [e]
      exact b v hv
    · simp only [e]
      rfl

end

end VGT
