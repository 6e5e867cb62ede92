import Verif.Model.DeviceVoxelize
import Verif.Props.DeviceIndex
import Verif.Props.RaycastFloat

/-!
The shared counter buffer of the device voxelizers.
-/
set_option autoImplicit false

namespace VGT
open VGT.EDT VGT.Spec VGT.Par

/-! ### Counting under every interleaving -/

/-- Buffer after the given increments. -/
def counterMem (as : List ℤ) : ℤ → ℤ := fun b => wrap32 (as.count b)

theorem counterMem_concat (as : List ℤ) (a : ℤ) :
    counterMem (as ++ [a]) = fun b => if b = a then wrap32 (counterMem as a + 1) else counterMem as b := by
  funext b
  unfold counterMem
  by_cases h : b = a
  · subst h
    simp [wrap32_add]
  · have h' : a ≠ b := fun e => h e.symm
    rw [if_neg h]
    simp [h', List.count_singleton]

theorem counterMem_perm {a b : List ℤ} (h : a.Perm b) : counterMem a = counterMem b := by
  funext x
  unfold counterMem
  rw [h.count_eq]

theorem counters_run {addrs : List (List ℤ)} : ∀ (sched : List ℕ) (s : List (List ℤ) × (ℤ → ℤ)) (done : List ℤ),
    s.2 = counterMem done → (done ++ s.1.flatten).Perm addrs.flatten →
    ∃ done', (sched.foldl counterStep s).2 = counterMem done' ∧
      (done' ++ (sched.foldl counterStep s).1.flatten).Perm addrs.flatten
  | [], s, done, h1, h2 => ⟨done, h1, h2⟩
  | t :: ts, s, done, h1, h2 => by
    rw [List.foldl_cons]
    unfold counterStep
    cases hs : s.1[t]? with
    | none => exact counters_run ts s done h1 h2
    | some l =>
      cases l with
      | nil => exact counters_run ts s done h1 h2
      | cons m ms =>
        refine counters_run ts _ (done ++ [m]) ?_ ?_
        · simp only [h1, counterMem_concat]
        · simp only [List.append_assoc, List.singleton_append]
          exact ((set_flatten_perm s.1 t m ms hs).symm.append_left done).trans h2

/-- A schedule that runs the threads one after the other. -/
theorem counters_finish : ∀ (pre : List (List ℤ)) (addrs : List (List ℤ)) (mem : ℤ → ℤ), (∀ l ∈ pre, l = []) →
    ∃ sched : List ℕ, ∀ l ∈ (sched.foldl counterStep (pre ++ addrs, mem)).1, l = []
  | pre, [], mem, h => ⟨[], by simpa using h⟩
  | pre, [] :: ls, mem, h => by
    obtain ⟨sched, hs⟩ := counters_finish (pre ++ [[]]) ls mem (by
      intro l hl
      rcases List.mem_append.1 hl with hl | hl
      · exact h l hl
      · simpa using hl)
    refine ⟨sched, ?_⟩
    simpa using hs
  | pre, (a :: as) :: ls, mem, h => by
    obtain ⟨sched, hs⟩ := counters_finish pre (as :: ls) (fun b => if b = a then wrap32 (mem a + 1) else mem b) h
    refine ⟨pre.length :: sched, ?_⟩
    rw [List.foldl_cons]
    have : counterStep (pre ++ (a :: as) :: ls, mem) pre.length =
        (pre ++ as :: ls, fun b => if b = a then wrap32 (mem a + 1) else mem b) := by
      unfold counterStep
      simp
    rw [this]
    exact hs
termination_by pre addrs => (addrs.flatten.length, addrs.length)

theorem countersRun_iff {threads : List (Option (List ℤ))} {mem : ℤ → ℤ} : CountersRun threads mem ↔
    (∀ t ∈ threads, t.isSome) ∧ mem = counterMem (threads.flatMap fun t => t.getD []) := by
  have key : ∀ addrs : List (List ℤ), (addrs.map some).flatMap (fun t => t.getD []) = addrs.flatten := by
    intro addrs
    rw [List.flatMap_map]
    simp [List.flatMap]
  constructor
  · rintro ⟨addrs, rfl, sched, hfin, rfl⟩
    refine ⟨by simp, ?_⟩
    obtain ⟨done, h1, h2⟩ := counters_run (addrs := addrs) sched (addrs, fun _ => 0) [] (by
      funext b
      simp [counterMem, wrap32]) (List.Perm.refl _)
    have hnil : (sched.foldl counterStep (addrs, fun _ => 0)).1.flatten = [] := by
      rw [List.flatten_eq_nil_iff]; exact hfin
    rw [hnil, List.append_nil] at h2
    rw [h1, key]
    exact counterMem_perm h2
  · rintro ⟨hall, rfl⟩
    have e : threads = (threads.map fun t => t.getD []).map some := by
      rw [List.map_map]
      conv_lhs => rw [← List.map_id threads]
      apply List.map_congr_left
      intro t ht
      obtain ⟨l, rfl⟩ := Option.isSome_iff_exists.1 (hall t ht)
      rfl
    obtain ⟨sched, hs⟩ := counters_finish [] (threads.map fun t => t.getD []) (fun _ => 0) (by simp)
    rw [List.nil_append] at hs
    refine ⟨threads.map fun t => t.getD [], e, sched, hs, ?_⟩
    obtain ⟨done, h1, h2⟩ := counters_run (addrs := threads.map fun t => t.getD []) sched
      (threads.map fun t => t.getD [], fun _ => 0) [] (by
      funext b
      simp [counterMem, wrap32]) (List.Perm.refl _)
    have hnil : (sched.foldl counterStep (threads.map fun t => t.getD [], fun _ => 0)).1.flatten = [] := by
      rw [List.flatten_eq_nil_iff]; exact hs
    rw [hnil, List.append_nil] at h2
    rw [h1]
    exact counterMem_perm h2

/-! ### Addresses -/

/-- The helper addresses every counter of `grids` grids where it belongs, in both kernels. -/
def ApiOk (api : DeviceApi) (d : Dims) (grids : ℕ) : Prop :=
  ∀ grid < grids, ∀ i, CellInGrid (axisCells d) i → ∀ k : ℕ, k < 2 →
    api.rayIndex d grid i k = some (flatIndex d grid i k) ∧
    api.filterIndex d grid (dataIndex d i) k = some (flatIndex d grid i k)

/-- The helper's raycasting kernel addresses every counter of `grids` grids where it belongs. -/
def RayOk (api : DeviceApi) (d : Dims) (grids : ℕ) : Prop :=
  ∀ grid < grids, ∀ i, CellInGrid (axisCells d) i → ∀ k : ℕ, k < 2 →
    api.rayIndex d grid i k = some (flatIndex d grid i k)

theorem ApiOk.ray {api : DeviceApi} {d : Dims} {grids : ℕ} (h : ApiOk api d grids) : RayOk api d grids :=
  fun grid hg i hi k hk => (h grid hg i hi k hk).1

theorem cudaApi_ray {T : ℕ} {d : Dims} (h : d.total * 2 ≤ 2 ^ 31) (grids : ℕ) : RayOk (cudaApi T) d grids := by
  intro grid _ i hi k hk
  have := cudaRayIndex_eq (grid := grid) h hi hk
  dsimp only [cudaApi]
  rw [this]

theorem cudaApi_ok {T : ℕ} {d : Dims} {grids : ℕ} (h : d.total * 2 * grids < 2 ^ 31) : ApiOk (cudaApi T) d grids := by
  intro grid hg i hi k hk
  obtain ⟨a, h1, h2, -, -, -⟩ := C47_addresses_partial h hg hi hk
  have hN : d.total * 2 ≤ 2 ^ 31 := by
    have : d.total * 2 * 1 ≤ d.total * 2 * grids := Nat.mul_le_mul_left _ (by omega)
    omega
  have := cudaRayIndex_eq (grid := grid) hN hi hk
  have e : flatIndex d grid i k = a := Option.some.inj (this.symm.trans h1)
  dsimp only [cudaApi]
  rw [this, e, h2]
  exact ⟨rfl, rfl⟩

theorem openclApi_ok {d : Dims} {grids : ℕ} (h : d.total * 2 * grids < 2 ^ 31) : ApiOk openclApi d grids := by
  intro grid hg i hi k hk
  obtain ⟨a, h1, -, h3, h4, -⟩ := C47_addresses_partial h hg hi hk
  have hN : d.total * 2 ≤ 2 ^ 31 := by
    have : d.total * 2 * 1 ≤ d.total * 2 * grids := Nat.mul_le_mul_left _ (by omega)
    omega
  have := cudaRayIndex_eq (grid := grid) hN hi hk
  have e : flatIndex d grid i k = a := Option.some.inj (this.symm.trans h1)
  dsimp only [openclApi]
  rw [e, h3, h4]
  exact ⟨rfl, rfl⟩

/-- Which of the two counters a mark goes to. -/
def Mark.counter : Mark → ℕ
  | .free _ => 0
  | .filled _ => 1

/-- Where a mark belongs. -/
def flatAddr (d : Dims) (grid : ℕ) (m : Mark) : ℤ := flatIndex d grid m.cell m.counter

theorem flatAddr_inj {d : Dims} {grids grid grid' : ℕ} (hg : grid < grids) {m m' : Mark}
    (hm : CellInGrid (axisCells d) m.cell) (hm' : CellInGrid (axisCells d) m'.cell)
    (h : flatAddr d grid' m' = flatAddr d grid m) : grid' = grid ∧ m' = m := by
  have hk : m.counter < 2 := by cases m <;> simp [Mark.counter]
  have hk' : m'.counter < 2 := by cases m' <;> simp [Mark.counter]
  obtain ⟨e1, e2, e3⟩ := (flatIndex_spec (numGrids := grids) hg hm hk).2.2 grid' m'.cell m'.counter hm' hk' h
  refine ⟨e1, ?_⟩
  cases m <;> cases m' <;> simp_all [Mark.cell, Mark.counter]

theorem inBuffer_flat {d : Dims} {grids grid : ℕ} (hg : grid < grids) {i : IVec} (hi : CellInGrid (axisCells d) i) {k : ℕ}
    (hk : k < 2) : inBuffer (trackingElements d.total grids) (flatIndex d grid i k) = some (flatIndex d grid i k) := by
  obtain ⟨h0, h1, -⟩ := flatIndex_spec hg hi hk
  unfold inBuffer
  rw [if_pos ⟨h0, h1⟩]

section
variable {F : Type} {api : DeviceApi} {A : Arith F} {sqrt : F → F} {g : RayGrid F}

theorem markAddr_eq {grids grid : ℕ} (hok : RayOk api g.dims grids) (hg : grid < grids) {m : Mark}
    (hm : CellInGrid (axisCells g.dims) m.cell) :
    markAddr api g (trackingElements g.dims.total grids) grid m = some (flatAddr g.dims grid m) := by
  cases m with
  | free i =>
    have h := hok grid hg i hm 0 (by norm_num)
    simp only [markAddr]
    have h' : api.rayIndex g.dims grid i 0 = some (flatIndex g.dims grid i 0) := h
    rw [h', Option.bind_some, inBuffer_flat hg (i := i) hm (by norm_num)]
    rfl
  | filled i =>
    have h := hok grid hg i hm 1 (by norm_num)
    simp only [markAddr]
    have h' : api.rayIndex g.dims grid i 1 = some (flatIndex g.dims grid i 1) := h
    rw [h', Option.bind_some, inBuffer_flat hg (i := i) hm (by norm_num)]
    rfl

theorem markAddrs_eq {grids grid : ℕ} (hok : RayOk api g.dims grids) (hg : grid < grids) : ∀ {ms : List Mark},
    (∀ m ∈ ms, CellInGrid (axisCells g.dims) m.cell) →
    markAddrs api g (trackingElements g.dims.total grids) grid ms = some (ms.map (flatAddr g.dims grid))
  | [], _ => rfl
  | m :: ms, h => by
    unfold markAddrs
    rw [markAddr_eq hok hg (h m List.mem_cons_self), Option.bind_some,
      markAddrs_eq hok hg fun m' hm' => h m' (List.mem_cons_of_mem _ hm')]
    rfl

theorem kernelPoint_marks {c : DevCloud F} {x : Option (Fin 3 → F)} {ms : List Mark}
    (h : kernelPoint A sqrt g c x = some ms) :
    (∀ m ∈ ms, CellInGrid (axisCells g.dims) m.cell) ∧ (ms.map Mark.cell).Nodup := by
  cases x with
  | none => cases h; simp
  | some x =>
    rcases C56_any_arithmetic A g h with rfl | ⟨_, _, _, _, _, hm, _⟩
    · simp
    · exact ⟨hm.inside, hm.once⟩

/-- No thread of the cloud runs into undefined behaviour. -/
def DevCloudOk (A : Arith F) (sqrt : F → F) (g : RayGrid F) (c : DevCloud F) : Prop :=
  ∀ x ∈ c.points, (kernelPoint A sqrt g c x).isSome

/-- All marks of a cloud. -/
def devMarks (A : Arith F) (sqrt : F → F) (g : RayGrid F) (c : DevCloud F) : List Mark :=
  c.points.flatMap fun x => (kernelPoint A sqrt g c x).getD []

theorem devMarks_inside {c : DevCloud F} {m : Mark} (hm : m ∈ devMarks A sqrt g c) : CellInGrid (axisCells g.dims) m.cell := by
  obtain ⟨x, hx, h⟩ := List.mem_flatMap.1 hm
  rcases hk : kernelPoint A sqrt g c x with _ | ms
  · rw [hk] at h; cases h
  · rw [hk] at h
    exact (kernelPoint_marks hk).1 m h

theorem kernelThread_eq {grids grid : ℕ} (hok : RayOk api g.dims grids) (hg : grid < grids) {c : DevCloud F} {n : ℕ}
    {x : Option (Fin 3 → F)} (hx : c.points[n]? = some x) (hn : n * 3 + 2 < 2 ^ 31) :
    kernelThread api A sqrt g (trackingElements g.dims.total grids) grid c n =
      (kernelPoint A sqrt g c x).map (List.map (flatAddr g.dims grid)) := by
  unfold kernelThread
  rw [hx]
  dsimp only
  rw [int32_some (by positivity) (by omega), Option.bind_some]
  rcases hk : kernelPoint A sqrt g c x with _ | ms
  · rfl
  · rw [Option.bind_some, markAddrs_eq hok hg (kernelPoint_marks hk).1]
    rfl

/-- The launch starts a thread for every point. -/
def LaunchOk (api : DeviceApi) (n : ℕ) : Prop := n * 3 < 2 ^ 31 ∧ ∃ m, api.launch n = some m ∧ n ≤ m

theorem range_flatMap_ge {α β : Type} (l : List α) (f : Option α → List β) (hf : f none = []) {m : ℕ} (hm : l.length ≤ m) :
    (List.range m).flatMap (fun i => f l[i]?) = l.flatMap fun x => f (some x) := by
  induction l generalizing m with
  | nil => simp [hf, List.flatMap]
  | cons x l ih =>
    obtain ⟨m, rfl⟩ : ∃ m', m = m' + 1 := ⟨m - 1, by simp at hm; omega⟩
    rw [List.range_succ_eq_map, List.flatMap_cons, List.flatMap_map]
    simp only [List.getElem?_cons_zero, List.getElem?_cons_succ, List.flatMap_cons]
    rw [ih (by simpa using hm)]

theorem launchThreads_spec {grids grid : ℕ} (hok : RayOk api g.dims grids) (hg : grid < grids) {c : DevCloud F}
    (hl : LaunchOk api c.points.length) :
    ((∀ t ∈ launchThreads api A sqrt g (trackingElements g.dims.total grids) c grid, t.isSome) ↔ DevCloudOk A sqrt g c) ∧
    (launchThreads api A sqrt g (trackingElements g.dims.total grids) c grid).flatMap (fun t => t.getD []) =
      (devMarks A sqrt g c).map (flatAddr g.dims grid) := by
  obtain ⟨h3, m, hm, hle⟩ := hl
  unfold launchThreads
  by_cases hnil : c.points = []
  · rw [if_pos hnil]
    unfold DevCloudOk devMarks
    rw [hnil]
    simp
  · rw [if_neg hnil, hm]
    dsimp only
    have hth : ∀ n, kernelThread api A sqrt g (trackingElements g.dims.total grids) grid c n =
        match c.points[n]? with
        | none => some []
        | some x => (kernelPoint A sqrt g c x).map (List.map (flatAddr g.dims grid)) := by
      intro n
      rcases hx : c.points[n]? with _ | x
      · unfold kernelThread
        rw [hx]
      · dsimp only
        have hn : n < c.points.length := (List.getElem?_eq_some_iff.1 hx).1
        exact kernelThread_eq hok hg hx (by omega)
    constructor
    · constructor
      · intro h x hx
        obtain ⟨n, hn, rfl⟩ := List.mem_iff_getElem.1 hx
        have := h _ (List.mem_map_of_mem (List.mem_range.2 (lt_of_lt_of_le hn hle)))
        rw [hth, List.getElem?_eq_getElem hn] at this
        simpa using this
      · intro h t ht
        obtain ⟨n, hn, rfl⟩ := List.mem_map.1 ht
        rw [hth]
        rcases hx : c.points[n]? with _ | x
        · rfl
        · have := h x (List.mem_of_getElem? hx)
          simpa using this
    · rw [List.flatMap_map]
      let fe : Option (Option (Fin 3 → F)) → List ℤ := fun y => match y with
        | none => []
        | some x => ((kernelPoint A sqrt g c x).getD []).map (flatAddr g.dims grid)
      have : (fun n => (kernelThread api A sqrt g (trackingElements g.dims.total grids) grid c n).getD []) =
          fun n => fe c.points[n]? := by
        funext n
        rw [hth]
        rcases c.points[n]? with _ | x
        · rfl
        · dsimp only
          show _ = ((kernelPoint A sqrt g c x).getD []).map (flatAddr g.dims grid)
          rcases kernelPoint A sqrt g c x with _ | ms <;> rfl
      rw [this, range_flatMap_ge c.points fe rfl hle]
      unfold devMarks
      rw [List.map_flatMap]

theorem deviceThreads_spec {grids : ℕ} (hok : RayOk api g.dims grids) : ∀ {clouds : List (DevCloud F)} {s : ℕ},
    s + clouds.length ≤ grids → (∀ c ∈ clouds, LaunchOk api c.points.length) →
    ((∀ t ∈ (clouds.zipIdx s).flatMap fun c =>
        launchThreads api A sqrt g (trackingElements g.dims.total grids) c.1 c.2, t.isSome) ↔
      ∀ c ∈ clouds, DevCloudOk A sqrt g c) ∧
    ((clouds.zipIdx s).flatMap fun c =>
        launchThreads api A sqrt g (trackingElements g.dims.total grids) c.1 c.2).flatMap (fun t => t.getD []) =
      (clouds.zipIdx s).flatMap fun c => (devMarks A sqrt g c.1).map (flatAddr g.dims c.2)
  | [], s, _, _ => by simp
  | c :: cs, s, hs, hl => by
    obtain ⟨h1, h2⟩ := launchThreads_spec (A := A) (sqrt := sqrt) hok (grid := s) (by simp at hs; omega)
      (hl c List.mem_cons_self)
    obtain ⟨h3, h4⟩ := deviceThreads_spec hok (clouds := cs) (s := s + 1) (by simp at hs; omega)
      (fun c' hc' => hl c' (List.mem_cons_of_mem _ hc'))
    rw [List.zipIdx_cons, List.flatMap_cons, List.flatMap_cons, List.flatMap_append, h2, h4]
    refine ⟨?_, rfl⟩
    rw [List.forall_mem_cons, ← h1, ← h3]
    simp only [List.mem_append, or_imp, forall_and]

theorem count_map_flat {d : Dims} {grids grid grid' : ℕ} (hg : grid < grids) {m : Mark}
    (hm : CellInGrid (axisCells d) m.cell) : ∀ {ms : List Mark}, (∀ m' ∈ ms, CellInGrid (axisCells d) m'.cell) →
    (ms.map (flatAddr d grid')).count (flatAddr d grid m) = if grid' = grid then ms.count m else 0
  | [], _ => by simp
  | m' :: ms, h => by
    rw [List.map_cons, List.count_cons, List.count_cons,
      count_map_flat hg hm fun m'' hm'' => h m'' (List.mem_cons_of_mem _ hm'')]
    by_cases e : flatAddr d grid' m' = flatAddr d grid m
    · obtain ⟨rfl, rfl⟩ := flatAddr_inj hg hm (h m' List.mem_cons_self) e
      simp
    · by_cases e' : grid' = grid
      · subst e'
        have : m' ≠ m := by rintro rfl; exact e rfl
        simp [e, this]
      · simp [e, e']

theorem count_clouds {grids grid : ℕ} (hg : grid < grids) {m : Mark} (hm : CellInGrid (axisCells g.dims) m.cell) :
    ∀ {clouds : List (DevCloud F)} {s : ℕ},
    ((clouds.zipIdx s).flatMap fun c => (devMarks A sqrt g c.1).map (flatAddr g.dims c.2)).count (flatAddr g.dims grid m) =
      if s ≤ grid then ((clouds[grid - s]?).map fun c => (devMarks A sqrt g c).count m).getD 0 else 0
  | [], s => by simp
  | c :: cs, s => by
    rw [List.zipIdx_cons, List.flatMap_cons, List.count_append,
      count_map_flat hg hm fun m' hm' => devMarks_inside hm', count_clouds hg hm (clouds := cs) (s := s + 1)]
    dsimp only
    by_cases h : s = grid
    · subst h
      simp
    · rw [if_neg h]
      by_cases h2 : s ≤ grid
      · rw [if_pos h2, if_pos (by omega)]
        have : grid - s = (grid - (s + 1)) + 1 := by omega
        rw [this, List.getElem?_cons_succ, Nat.zero_add]
      · rw [if_neg h2, if_neg (by omega)]

end

end VGT
