import Verif.Model.VoxelizeFloat
import Verif.Props.DeviceVoxelize

set_option autoImplicit false

namespace VGT
open VGT.EDT VGT.Spec VGT.Par

section
variable {F : Type} {A : Arith F} {sqrt : F → F} {g : RayGrid F}

theorem cpuThread_eq (c : CpuCloud F) : ∀ is : List ℕ,
    cpuThread A sqrt g c is = if ∀ i ∈ is, (cpuPoint A sqrt g c (c.points.getD i none)).isSome then
      some (is.flatMap fun i => (cpuPoint A sqrt g c (c.points.getD i none)).getD []) else none
  | [] => by simp [cpuThread]
  | i :: is => by
    unfold cpuThread
    rw [cpuThread_eq c is]
    cases h : cpuPoint A sqrt g c (c.points.getD i none) with
    | none =>
      have hno : ¬ ∀ j ∈ i :: is, (cpuPoint A sqrt g c (c.points.getD j none)).isSome = true := by
        intro h'
        have := h' i (List.mem_cons_self)
        rw [h] at this
        cases this
      rw [if_neg hno]
      rfl
    | some ms =>
      by_cases hall : ∀ j ∈ is, (cpuPoint A sqrt g c (c.points.getD j none)).isSome
      · rw [if_pos hall, if_pos (by
          intro j hj
          rcases List.mem_cons.1 hj with rfl | hj
          · rw [h]; rfl
          · exact hall j hj)]
        simp only [Option.bind_some, Option.map_some, List.flatMap_cons, h, Option.getD_some]
      · rw [if_neg hall, if_neg (fun h' => hall fun j hj => h' j (List.mem_cons_of_mem _ hj))]
        rfl

/-- All marks of a cloud. -/
def cpuMarks (A : Arith F) (sqrt : F → F) (g : RayGrid F) (c : CpuCloud F) : List Mark :=
  c.points.flatMap fun p => (cpuPoint A sqrt g c p).getD []

/-- Nothing of the cloud is undefined behaviour. -/
def CpuCloudOk (A : Arith F) (sqrt : F → F) (g : RayGrid F) (c : CpuCloud F) : Prop :=
  (flIndex A g (cpuOrigin A c.tf)).isSome ∧ ∀ p ∈ c.points, (cpuPoint A sqrt g c p).isSome

theorem cpuCloudRuns_imp {c : CpuCloud F} {tr : Track} (h : CpuCloudRuns A sqrt g c tr) :
    CpuCloudOk A sqrt g c ∧ tr = trackOf g.dims (cpuMarks A sqrt g c) := by
  obtain ⟨h0, split, hs, marks, hmarks, sched, hfin, rfl⟩ := h
  have hall : ∀ is ∈ split, ∀ i ∈ is, (cpuPoint A sqrt g c (c.points.getD i none)).isSome := by
    intro is his
    have : cpuThread A sqrt g c is ∈ marks.map some := by rw [← hmarks]; exact List.mem_map_of_mem his
    rw [cpuThread_eq] at this
    by_contra hno
    rw [if_neg hno] at this
    simp at this
  have hm : marks = split.map fun is => is.flatMap fun i => (cpuPoint A sqrt g c (c.points.getD i none)).getD [] := by
    have e : split.map (cpuThread A sqrt g c) =
        (split.map fun is => is.flatMap fun i => (cpuPoint A sqrt g c (c.points.getD i none)).getD []).map some := by
      rw [List.map_map]
      apply List.map_congr_left
      intro is his
      rw [cpuThread_eq, if_pos (hall is his)]
      rfl
    rw [e] at hmarks
    exact (List.map_injective_iff.2 (Option.some_injective _) hmarks).symm
  obtain ⟨done, h1, h2⟩ := marks_run (d := g.dims) (marks := marks) sched (marks, fun _ => (0, 0)) [] (trackOf_nil _).symm
    (List.Perm.refl _)
  have hnil : (sched.foldl (markStep g.dims) (marks, fun _ => (0, 0))).1.flatten = [] := by
    rw [List.flatten_eq_nil_iff]; exact hfin
  rw [hnil, List.append_nil] at h2
  refine ⟨⟨h0, ?_⟩, ?_⟩
  · intro p hp
    obtain ⟨i, hi, rfl⟩ := List.mem_iff_getElem.1 hp
    obtain ⟨is, his, hiis⟩ := List.mem_flatten.1 (hs.mem_iff.2 (List.mem_range.2 hi))
    have := hall is his i hiis
    simpa [List.getD, hi] using this
  · rw [h1]
    apply trackOf_perm
    refine h2.trans ?_
    have e : marks.flatten = split.flatten.flatMap fun i => (cpuPoint A sqrt g c (c.points.getD i none)).getD [] := by
      rw [hm]
      exact flatten_map_flatMap _ split
    rw [e]
    unfold cpuMarks
    rw [← range_flatMap_getD c.points none]
    exact List.Perm.flatMap_right _ hs

theorem cpuCloudRuns_iff {c : CpuCloud F} {tr : Track} : CpuCloudRuns A sqrt g c tr ↔
    CpuCloudOk A sqrt g c ∧ tr = trackOf g.dims (cpuMarks A sqrt g c) := by
  refine ⟨cpuCloudRuns_imp, ?_⟩
  rintro ⟨hok, rfl⟩
  have hall : ∀ i ∈ List.range c.points.length, (cpuPoint A sqrt g c (c.points.getD i none)).isSome := by
    intro i hi
    rw [List.mem_range] at hi
    have := hok.2 _ (List.getElem_mem hi)
    simpa [List.getD, hi] using this
  have hrun : CpuCloudRuns A sqrt g c ((cpuMarks A sqrt g c).foldl (addMark g.dims) fun _ => (0, 0)) := by
    refine ⟨hok.1, [List.range c.points.length], by unfold IsSplit; simp, [cpuMarks A sqrt g c], ?_,
      List.replicate (cpuMarks A sqrt g c).length 0, ?_, ?_⟩
    · simp only [List.map_cons, List.map_nil]
      rw [cpuThread_eq, if_pos hall]
      unfold cpuMarks
      rw [← range_flatMap_getD c.points none]
    · rw [single_thread]; simp
    · rw [single_thread]
  rw [← (cpuCloudRuns_imp hrun).2]
  exact hrun

/-- The hit counts of all cameras at data index `v`. -/
def cpuHits (A : Arith F) (sqrt : F → F) (g : RayGrid F) (clouds : List (CpuCloud F)) (v : ℕ) : List (ℤ × ℤ) :=
  clouds.map fun c => trackOf g.dims (cpuMarks A sqrt g c) v

/-- Everything the voxelizer can leave behind. -/
theorem flVoxelizeRuns_iff {K : Type} {o : FilterOptions} {clouds : List (CpuCloud F)} {output output' : VoxMap K} :
    FlVoxelizeRuns A sqrt g o clouds output output' ↔
    (∀ c ∈ clouds, CpuCloudOk A sqrt g c) ∧
    (∀ v < output.dims.total, (o.filterCell (cpuHits A sqrt g clouds v) (output.data v)).isSome) ∧
    output' = { output with
      data := filterData (fun v => o.filterCell (cpuHits A sqrt g clouds v)) output.dims.total output.data } := by
  unfold FlVoxelizeRuns
  have hfa : ∀ tracks : List Track, List.Forall₂ (CpuCloudRuns A sqrt g) clouds tracks ↔
      (∀ c ∈ clouds, CpuCloudOk A sqrt g c) ∧
      tracks = clouds.map fun c => trackOf g.dims (cpuMarks A sqrt g c) := by
    induction clouds with
    | nil => intro tracks; simp
    | cons c cs ih =>
      intro tracks
      constructor
      · intro h
        cases h with
        | cons h1 h2 =>
          obtain ⟨a, b⟩ := cpuCloudRuns_iff.1 h1
          obtain ⟨a', b'⟩ := (ih _).1 h2
          subst b b'
          exact ⟨List.forall_mem_cons.2 ⟨a, a'⟩, rfl⟩
      · rintro ⟨h1, rfl⟩
        rw [List.map_cons]
        exact .cons (cpuCloudRuns_iff.2 ⟨h1 c List.mem_cons_self, rfl⟩)
          ((ih _).2 ⟨fun x hx => h1 x (List.mem_cons_of_mem _ hx), rfl⟩)
  have hh : ∀ v, (List.map (fun tr : Track => tr v) (clouds.map fun c => trackOf g.dims (cpuMarks A sqrt g c))) =
      cpuHits A sqrt g clouds v := by
    intro v
    unfold cpuHits
    rw [List.map_map]
    rfl
  constructor
  · rintro ⟨tracks, h1, data', h2, rfl⟩
    obtain ⟨a, rfl⟩ := (hfa _).1 h1
    simp only [hh] at h2
    obtain ⟨b, rfl⟩ := filterRuns_iff.1 h2
    exact ⟨a, b, rfl⟩
  · rintro ⟨a, b, rfl⟩
    refine ⟨_, (hfa _).2 ⟨a, rfl⟩, _, ?_, rfl⟩
    simp only [hh]
    exact filterRuns_iff.2 ⟨b, rfl⟩

theorem cpuPoint_marks {c : CpuCloud F} {x : Option (Fin 3 → F)} {ms : List Mark} (h : cpuPoint A sqrt g c x = some ms) :
    (∀ m ∈ ms, CellInGrid (axisCells g.dims) m.cell) ∧ (ms.map Mark.cell).Nodup := by
  cases x with
  | none => cases h; simp
  | some x =>
    rcases C56_any_arithmetic A g h with rfl | ⟨_, _, _, _, _, hm, _⟩
    · simp
    · exact ⟨hm.inside, hm.once⟩

end

end VGT
