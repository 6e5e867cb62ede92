import Verif.Model.CpuApi
import Verif.Lemmas.Voxelize2
import Verif.Props.Voxelize

/-!
What raycasting adds to a tracking grid that already holds counts.
-/
set_option autoImplicit false

namespace VGT
open VGT.EDT VGT.Par VGT.Spec

theorem addMark_comm (d : Dims) (tr : Track) (a b : Mark) :
    addMark d (addMark d tr a) b = addMark d (addMark d tr b) a := by
  funext v
  cases a with
  | free i =>
    cases b with
    | free j =>
      by_cases hij : dataIndex d i = dataIndex d j
      · simp [addMark, hij]
      · by_cases h1 : v = dataIndex d i
        · subst h1; simp [addMark, Function.update_of_ne hij, Function.update_of_ne (Ne.symm hij), hij]
        · by_cases h2 : v = dataIndex d j
          · subst h2; simp [addMark, Function.update_of_ne (Ne.symm hij), hij, h1]
          · simp [addMark, Function.update_of_ne h1, Function.update_of_ne h2]
    | filled j =>
      by_cases hij : dataIndex d i = dataIndex d j
      · simp [addMark, hij]
      · by_cases h1 : v = dataIndex d i
        · subst h1; simp [addMark, Function.update_of_ne hij, Function.update_of_ne (Ne.symm hij), hij]
        · by_cases h2 : v = dataIndex d j
          · subst h2; simp [addMark, Function.update_of_ne (Ne.symm hij), hij, h1]
          · simp [addMark, Function.update_of_ne h1, Function.update_of_ne h2]
  | filled i =>
    cases b with
    | free j =>
      by_cases hij : dataIndex d i = dataIndex d j
      · simp [addMark, hij]
      · by_cases h1 : v = dataIndex d i
        · subst h1; simp [addMark, Function.update_of_ne hij, Function.update_of_ne (Ne.symm hij), hij]
        · by_cases h2 : v = dataIndex d j
          · subst h2; simp [addMark, Function.update_of_ne (Ne.symm hij), hij, h1]
          · simp [addMark, Function.update_of_ne h1, Function.update_of_ne h2]
    | filled j =>
      by_cases hij : dataIndex d i = dataIndex d j
      · simp [addMark, hij]
      · by_cases h1 : v = dataIndex d i
        · subst h1; simp [addMark, Function.update_of_ne hij, Function.update_of_ne (Ne.symm hij), hij]
        · by_cases h2 : v = dataIndex d j
          · subst h2; simp [addMark, Function.update_of_ne (Ne.symm hij), hij, h1]
          · simp [addMark, Function.update_of_ne h1, Function.update_of_ne h2]

/-- The counters after the marks. -/
def addMarks (d : Dims) (tr : Track) (ms : List Mark) : Track := ms.foldl (addMark d) tr

theorem addMarks_perm {d : Dims} (tr : Track) {a b : List Mark} (h : a.Perm b) : addMarks d tr a = addMarks d tr b := by
  unfold addMarks
  induction h generalizing tr with
  | nil => rfl
  | cons x _ ih => exact ih _
  | swap x y l => simp only [List.foldl_cons]; rw [addMark_comm]
  | trans _ _ h1 h2 => exact (h1 tr).trans (h2 tr)

theorem addMarks_append (d : Dims) (tr : Track) (a b : List Mark) :
    addMarks d tr (a ++ b) = addMarks d (addMarks d tr a) b := List.foldl_append

theorem addMarks_comm (d : Dims) (tr : Track) (a b : List Mark) :
    addMarks d (addMarks d tr a) b = addMarks d (addMarks d tr b) a := by
  rw [← addMarks_append, ← addMarks_append]
  exact addMarks_perm tr List.perm_append_comm

/-- The counter values that an `int32_t` can hold. -/
def IsInt32 (x : ℤ) : Prop := -2 ^ 31 ≤ x ∧ x < 2 ^ 31

theorem wrap32_of_isInt32 {x : ℤ} (h : IsInt32 x) : wrap32 x = x := by
  obtain ⟨h1, h2⟩ := h
  unfold wrap32; omega

theorem wrap32_isInt32 (x : ℤ) : IsInt32 (wrap32 x) := by
  unfold IsInt32 wrap32; omega

theorem addMarks_value {d : Dims} {v : ℕ} : ∀ (ms : List Mark) (tr : Track), IsInt32 (tr v).1 → IsInt32 (tr v).2 →
    addMarks d tr ms v = (wrap32 ((tr v).1 + ms.countP (isFreeAt d v)), wrap32 ((tr v).2 + ms.countP (isFilledAt d v)))
  | [], tr, h1, h2 => by
    simp only [addMarks, List.foldl_nil, List.countP_nil, Nat.cast_zero, add_zero]
    rw [wrap32_of_isInt32 h1, wrap32_of_isInt32 h2]
  | m :: ms, tr, h1, h2 => by
    have e : addMarks d tr (m :: ms) = addMarks d (addMark d tr m) ms := rfl
    rw [e]
    cases m with
    | free i =>
      by_cases h : v = dataIndex d i
      · have ev : addMark d tr (.free i) v = (wrap32 ((tr v).1 + 1), (tr v).2) := by
          subst h; simp [addMark]
        rw [addMarks_value ms _ (by rw [ev]; exact wrap32_isInt32 _) (by rw [ev]; exact h2), ev]
        simp only [List.countP_cons, wrap32_add]
        simp [isFreeAt, isFilledAt, h, add_assoc, add_comm, add_left_comm]
      · have ev : addMark d tr (.free i) v = tr v := by
          unfold addMark; simp only [Function.update_of_ne h]
        have h' : dataIndex d i ≠ v := fun e => h e.symm
        rw [addMarks_value ms _ (by rw [ev]; exact h1) (by rw [ev]; exact h2), ev]
        simp [List.countP_cons, isFreeAt, isFilledAt, h']
    | filled i =>
      by_cases h : v = dataIndex d i
      · have ev : addMark d tr (.filled i) v = ((tr v).1, wrap32 ((tr v).2 + 1)) := by
          subst h; simp [addMark]
        rw [addMarks_value ms _ (by rw [ev]; exact h1) (by rw [ev]; exact wrap32_isInt32 _), ev]
        simp only [List.countP_cons, wrap32_add]
        simp [isFreeAt, isFilledAt, h, add_assoc, add_comm, add_left_comm]
      · have ev : addMark d tr (.filled i) v = tr v := by
          unfold addMark; simp only [Function.update_of_ne h]
        have h' : dataIndex d i ≠ v := fun e => h e.symm
        rw [addMarks_value ms _ (by rw [ev]; exact h1) (by rw [ev]; exact h2), ev]
        simp [List.countP_cons, isFreeAt, isFilledAt, h']

theorem trackOf_eq_addMarks (d : Dims) (ms : List Mark) : trackOf d ms = addMarks d (fun _ => (0, 0)) ms := by
  funext v
  rw [addMarks_value ms _ (by constructor <;> norm_num) (by constructor <;> norm_num)]
  simp [trackOf]

theorem marks_run_on {d : Dims} {tr₀ : Track} {marks : List (List Mark)} :
    ∀ (sched : List ℕ) (s : List (List Mark) × Track) (done : List Mark),
    s.2 = addMarks d tr₀ done → (done ++ s.1.flatten).Perm marks.flatten →
    ∃ done', (sched.foldl (markStep d) s).2 = addMarks d tr₀ done' ∧
      (done' ++ (sched.foldl (markStep d) s).1.flatten).Perm marks.flatten
  | [], s, done, h1, h2 => ⟨done, h1, h2⟩
  | t :: ts, s, done, h1, h2 => by
    rw [List.foldl_cons]
    unfold markStep
    cases hs : s.1[t]? with
    | none => exact marks_run_on ts s done h1 h2
    | some l =>
      cases l with
      | nil => exact marks_run_on ts s done h1 h2
      | cons m ms =>
        refine marks_run_on ts _ (done ++ [m]) ?_ ?_
        · simp only [h1, addMarks_append]; rfl
        · simp only [List.append_assoc, List.singleton_append]
          exact ((set_flatten_perm s.1 t m ms hs).symm.append_left done).trans h2

section
variable {K : Type} [Field K] [LinearOrder K] [IsStrictOrderedRing K] [FloorRing K]

/-- Everything casting a cloud into a used grid can leave behind. -/
theorem cloudRunsOn_iff {d : Dims} {s : K} {norm : Vec K → K} {c : Cloud K} {tr₀ tr : Track} :
    CloudRunsOn d s norm c tr₀ tr ↔ CloudOk d s norm c ∧ tr = addMarks d tr₀ (cloudMarks d s norm c) := by
  constructor
  · rintro ⟨split, hs, marks, hmarks, sched, hfin, rfl⟩
    have hall : ∀ is ∈ split, ∀ i ∈ is, (pointMarks d s norm c (c.points.getD i none)).isSome := by
      intro is his
      have : threadMarks d s norm c is ∈ marks.map some := by rw [← hmarks]; exact List.mem_map_of_mem his
      rw [threadMarks_eq] at this
      by_contra hno
      rw [if_neg hno] at this
      simp at this
    have hm : marks = split.map fun is => is.flatMap fun i => (pointMarks d s norm c (c.points.getD i none)).getD [] := by
      have e : split.map (threadMarks d s norm c) =
          (split.map fun is => is.flatMap fun i => (pointMarks d s norm c (c.points.getD i none)).getD []).map some := by
        rw [List.map_map]
        apply List.map_congr_left
        intro is his
        rw [threadMarks_eq, if_pos (hall is his)]
        rfl
      rw [e] at hmarks
      exact (List.map_injective_iff.2 (Option.some_injective _) hmarks).symm
    obtain ⟨done, h1, h2⟩ := marks_run_on (d := d) (tr₀ := tr₀) (marks := marks) sched (marks, tr₀) [] rfl
      (List.Perm.refl _)
    have hnil : (sched.foldl (markStep d) (marks, tr₀)).1.flatten = [] := by
      rw [List.flatten_eq_nil_iff]; exact hfin
    rw [hnil, List.append_nil] at h2
    refine ⟨?_, ?_⟩
    · intro p hp
      obtain ⟨i, hi, rfl⟩ := List.mem_iff_getElem.1 hp
      obtain ⟨is, his, hiis⟩ := List.mem_flatten.1 (hs.mem_iff.2 (List.mem_range.2 hi))
      have := hall is his i hiis
      simpa [List.getD, hi] using this
    · rw [h1]
      apply addMarks_perm
      refine h2.trans ?_
      have e : marks.flatten = split.flatten.flatMap fun i => (pointMarks d s norm c (c.points.getD i none)).getD [] := by
        rw [hm]
        exact flatten_map_flatMap _ split
      rw [e]
      unfold cloudMarks
      rw [← range_flatMap_getD c.points none]
      exact List.Perm.flatMap_right _ hs
  · rintro ⟨hok, rfl⟩
    have hall : ∀ i ∈ List.range c.points.length, (pointMarks d s norm c (c.points.getD i none)).isSome := by
      intro i hi
      rw [List.mem_range] at hi
      have := hok _ (List.getElem_mem hi)
      simpa [List.getD, hi] using this
    refine ⟨[List.range c.points.length], by unfold IsSplit; simp, [cloudMarks d s norm c], ?_,
      List.replicate (cloudMarks d s norm c).length 0, ?_, ?_⟩
    · simp only [List.map_cons, List.map_nil]
      rw [threadMarks_eq, if_pos hall]
      unfold cloudMarks
      rw [← range_flatMap_getD c.points none]
    · rw [single_thread]; simp
    · rw [single_thread]; rfl

theorem cloudRunsOn_zero {d : Dims} {s : K} {norm : Vec K → K} {c : Cloud K} {tr : Track} :
    CloudRunsOn d s norm c (fun _ => (0, 0)) tr ↔ CloudRuns d s norm c tr := by
  rw [cloudRunsOn_iff, cloudRuns_iff, trackOf_eq_addMarks]

end

end VGT
