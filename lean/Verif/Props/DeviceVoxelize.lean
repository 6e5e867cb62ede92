import Verif.Lemmas.DeviceVoxelize
import Verif.Props.Voxelize

/-!
C57: the device voxelizers from end to end.
-/
set_option autoImplicit false

namespace VGT
open VGT.EDT VGT.Spec VGT.Par

section
variable {F : Type} (A : Arith F) (sqrt : F → F) (g : RayGrid F)

/-- The ray of the point puts the mark. -/
def DevPuts (c : DevCloud F) (m : Mark) (x : Option (Fin 3 → F)) : Prop :=
  ∃ ms, kernelPoint A sqrt g c x = some ms ∧ m ∈ ms

open Classical in
/-- How many points of the cloud put the mark. -/
noncomputable def devHits (c : DevCloud F) (m : Mark) : ℕ := c.points.countP fun x => decide (DevPuts A sqrt g c m x)

/-- The tracking grid holds the numbers of rays through and into each cell. -/
def HoldsHits (c : DevCloud F) (tr : Track) : Prop :=
  ∀ i, CellInGrid (axisCells g.dims) i →
    tr (dataIndex g.dims i) = ((devHits A sqrt g c (.free i) : ℤ), (devHits A sqrt g c (.filled i) : ℤ))

/-- The two helpers, with clouds whose points can be addressed. -/
def Helper (api : DeviceApi) (clouds : List (DevCloud F)) : Prop :=
  (api = openclApi ∧ ∀ c ∈ clouds, c.points.length * 3 < 2 ^ 31) ∨
  ∃ T : ℕ, 0 < T ∧ api = cudaApi T ∧ ∀ c ∈ clouds, c.points.length * 3 < 2 ^ 31 ∧ c.points.length + T ≤ 2 ^ 31

end

section
variable {F : Type} {A : Arith F} {sqrt : F → F} {g : RayGrid F} {api : DeviceApi}

theorem helper_launch {clouds : List (DevCloud F)} (h : Helper api clouds) :
    ∀ c ∈ clouds, LaunchOk api c.points.length := by
  intro c hc
  rcases h with ⟨rfl, h⟩ | ⟨T, hT, rfl, h⟩
  · exact ⟨h c hc, _, rfl, le_rfl⟩
  · obtain ⟨h1, h2⟩ := h c hc
    refine ⟨h1, ?_⟩
    generalize c.points.length = n at *
    have hi : int32 ((n : ℤ) + (T - 1)) = some ((n : ℤ) + (T - 1)) := int32_some (by omega) (by omega)
    refine ⟨(((n : ℤ) + (T - 1)) / T * T).toNat, ?_, ?_⟩
    · dsimp only [cudaApi]
      rw [hi]
      rfl
    · have h3 := Int.emod_lt_of_pos ((n : ℤ) + (T - 1)) (show (0 : ℤ) < T by exact_mod_cast hT)
      have h4 := Int.mul_ediv_add_emod ((n : ℤ) + (T - 1)) T
      rw [Int.mul_comm] at h4
      generalize ((n : ℤ) + (T - 1)) / T * T = y at *
      omega

theorem helper_api {clouds : List (DevCloud F)} (h : Helper api clouds) {d : Dims} {grids : ℕ}
    (hN : d.total * 2 * grids < 2 ^ 31) : ApiOk api d grids := by
  rcases h with ⟨rfl, -⟩ | ⟨T, hT, rfl, -⟩
  · exact openclApi_ok hN
  · exact cudaApi_ok hN

theorem devMarks_count {c : DevCloud F} {i : IVec} (hi : CellInGrid (axisCells g.dims) i) :
    (devMarks A sqrt g c).count (.free i) = devHits A sqrt g c (.free i) ∧
    (devMarks A sqrt g c).count (.filled i) = devHits A sqrt g c (.filled i) ∧
    devHits A sqrt g c (.free i) + devHits A sqrt g c (.filled i) ≤ c.points.length := by
  classical
  unfold devMarks devHits
  generalize c.points = l
  induction l with
  | nil => simp
  | cons x l ih =>
    obtain ⟨ih1, ih2, ih3⟩ := ih
    rw [List.flatMap_cons, List.count_append, List.count_append, ih1, ih2, List.countP_cons, List.countP_cons]
    cases hp : kernelPoint A sqrt g c x with
    | none =>
      have n1 : ∀ m, ¬ DevPuts A sqrt g c m x := by
        rintro m ⟨ms, h, _⟩
        rw [hp] at h
        cases h
      simp [n1]
      omega
    | some ms =>
      obtain ⟨hg, hnd⟩ := kernelPoint_marks hp
      have hnd' : ms.Nodup := List.Nodup.of_map _ hnd
      have n1 : ∀ m, DevPuts A sqrt g c m x ↔ m ∈ ms := by
        intro m
        constructor
        · rintro ⟨ms', h, hm⟩
          rw [hp] at h
          cases h
          exact hm
        · exact fun h => ⟨ms, hp, h⟩
      have hex : ¬ (Mark.free i ∈ ms ∧ Mark.filled i ∈ ms) := by
        rintro ⟨h1, h2⟩
        have := List.inj_on_of_nodup_map hnd h1 h2 rfl
        cases this
      have cnt : ∀ m, ms.count m = if m ∈ ms then 1 else 0 := by
        intro m
        by_cases h : m ∈ ms
        · rw [if_pos h, List.count_eq_one_of_mem hnd' h]
        · rw [if_neg h, List.count_eq_zero_of_not_mem h]
      simp only [Option.getD_some, n1, decide_eq_true_eq, cnt, List.length_cons]
      refine ⟨by omega, by omega, ?_⟩
      by_cases h1 : Mark.free i ∈ ms
      · have h2 : Mark.filled i ∉ ms := fun h2 => hex ⟨h1, h2⟩
        rw [if_pos h1, if_neg h2]
        omega
      · rw [if_neg h1]
        split_ifs <;> omega

theorem readCounters_eq {d : Dims} {grids : ℕ} (hok : ApiOk api d grids) (mem : ℤ → ℤ) {i : IVec}
    (hi : CellInGrid (axisCells d) i) : ∀ {gs : List ℕ}, (∀ k ∈ gs, k < grids) →
    readCounters api d (trackingElements d.total grids) mem (dataIndex d i) gs =
      some (gs.map fun k => (mem (flatAddr d k (.free i)), mem (flatAddr d k (.filled i))))
  | [], _ => rfl
  | k :: gs, h => by
    have hk := h k List.mem_cons_self
    have h0 : api.filterIndex d k (dataIndex d i) 0 = some (flatIndex d k i 0) := (hok k hk i hi 0 (by norm_num)).2
    have h1 : api.filterIndex d k (dataIndex d i) 1 = some (flatIndex d k i 1) := (hok k hk i hi 1 (by norm_num)).2
    unfold readCounters
    rw [h0, h1, Option.bind_some, Option.bind_some, inBuffer_flat hk hi (by norm_num), inBuffer_flat hk hi (by norm_num),
      Option.bind_some, Option.bind_some, readCounters_eq hok mem hi fun k' hk' => h k' (List.mem_cons_of_mem _ hk')]
    rfl

theorem filterRuns_congr {cell cell' : ℕ → Fl → Option (Option Fl)} {N : ℕ} (h : ∀ v < N, ∀ occ, cell v occ = cell' v occ)
    (occ occ' : ℕ → Fl) : FilterRuns cell N occ occ' ↔ FilterRuns cell' N occ occ' := by
  rw [filterRuns_iff, filterRuns_iff]
  refine and_congr (forall₂_congr fun v hv => by rw [h v hv]) ?_
  have : (fun v => if v < N then newVal cell occ v else occ v) = fun v => if v < N then newVal cell' occ v else occ v := by
    funext v
    by_cases hv : v < N
    · rw [if_pos hv, if_pos hv]
      unfold newVal
      rw [h v hv]
    · rw [if_neg hv, if_neg hv]
  rw [this]

theorem counter_value {clouds : List (DevCloud F)} {grids k : ℕ} (hk : k < grids) {m : Mark}
    (hm : CellInGrid (axisCells g.dims) m.cell) :
    counterMem (clouds.zipIdx.flatMap fun c => (devMarks A sqrt g c.1).map (flatAddr g.dims c.2)) (flatAddr g.dims k m) =
      wrap32 (((clouds[k]?).map fun c => (devMarks A sqrt g c).count m).getD 0 : ℕ) := by
  unfold counterMem
  have := count_clouds (A := A) (sqrt := sqrt) hk hm (clouds := clouds) (s := 0)
  rw [this, if_pos (Nat.zero_le _), Nat.sub_zero]

/-- The tracking grids with the hit counts. -/
noncomputable def hitTracks (A : Arith F) (sqrt : F → F) (g : RayGrid F) (clouds : List (DevCloud F)) : List Track :=
  clouds.map fun c => trackOf g.dims (devMarks A sqrt g c)

theorem countP_free {d : Dims} {i : IVec} (hi : CellInGrid (axisCells d) i) : ∀ {ms : List Mark},
    (∀ m ∈ ms, CellInGrid (axisCells d) m.cell) →
    ms.countP (isFreeAt d (dataIndex d i)) = ms.count (.free i) ∧
    ms.countP (isFilledAt d (dataIndex d i)) = ms.count (.filled i)
  | [], _ => by simp
  | m :: ms, h => by
    obtain ⟨h1, h2⟩ := countP_free hi fun m' hm' => h m' (List.mem_cons_of_mem _ hm')
    have hm := h m List.mem_cons_self
    rw [List.countP_cons, List.countP_cons, List.count_cons, List.count_cons, h1, h2]
    cases m with
    | free j =>
      by_cases e : dataIndex d j = dataIndex d i
      · have := dataIndex_inj hm hi e
        simp only [Mark.cell] at this
        subst this
        simp [isFreeAt, isFilledAt]
      · have : j ≠ i := by rintro rfl; exact e rfl
        simp [isFreeAt, isFilledAt, e, this]
    | filled j =>
      by_cases e : dataIndex d j = dataIndex d i
      · have := dataIndex_inj hm hi e
        simp only [Mark.cell] at this
        subst this
        simp [isFreeAt, isFilledAt]
      · have : j ≠ i := by rintro rfl; exact e rfl
        simp [isFreeAt, isFilledAt, e, this]

theorem hitTracks_holds {clouds : List (DevCloud F)} (hlen : ∀ c ∈ clouds, c.points.length < 2 ^ 31) :
    List.Forall₂ (HoldsHits A sqrt g) clouds (hitTracks A sqrt g clouds) := by
  unfold hitTracks
  rw [List.forall₂_map_right_iff, List.forall₂_same]
  intro c hc i hi
  obtain ⟨e1, e2, e3⟩ := devMarks_count (A := A) (sqrt := sqrt) (c := c) hi
  obtain ⟨f1, f2⟩ := countP_free hi (ms := devMarks A sqrt g c) fun m hm => devMarks_inside hm
  have := hlen c hc
  unfold trackOf
  rw [f1, f2, e1, e2, wrap32_small (by positivity) (by omega), wrap32_small (by positivity) (by omega)]

theorem holdsHits_cell {clouds : List (DevCloud F)} : ∀ {tracks tracks' : List Track},
    List.Forall₂ (HoldsHits A sqrt g) clouds tracks → List.Forall₂ (HoldsHits A sqrt g) clouds tracks' →
    (tracks = [] ↔ tracks' = []) ∧ ∀ v < g.dims.total, tracks.map (fun tr => tr v) = tracks'.map fun tr => tr v := by
  induction clouds with
  | nil =>
    intro tracks tracks' h h'
    cases h
    cases h'
    simp
  | cons c cs ih =>
    intro tracks tracks' h h'
    cases h with
    | cons h1 h2 =>
      cases h' with
      | cons h1' h2' =>
        refine ⟨by simp, fun v hv => ?_⟩
        obtain ⟨i, hi, rfl⟩ := exists_cell hv
        rw [List.map_cons, List.map_cons, (ih h2 h2').2 _ hv, h1 i hi, h1' i hi]

/-- C57: the raycasting kernels of all cameras together, whatever the interleaving of their atomic increments in the
shared buffer: each counter, at the address where the filter kernel looks for it, holds exactly the number of points of
its camera whose rays mark that cell. -/
theorem C57_counters_exact {clouds : List (DevCloud F)} (hh : Helper api clouds)
    (hN : g.dims.total * 2 * numTrackingGrids clouds < 2 ^ 31) {mem : ℤ → ℤ}
    (h : CountersRun (deviceThreads api A sqrt g (trackingElements g.dims.total (numTrackingGrids clouds)) clouds) mem)
    {k : ℕ} {c : DevCloud F} (hc : clouds[k]? = some c) {i : IVec} (hi : CellInGrid (axisCells g.dims) i) :
    ∃ a b, api.filterIndex g.dims k (dataIndex g.dims i) 0 = some a ∧ api.filterIndex g.dims k (dataIndex g.dims i) 1 = some b ∧
      mem a = devHits A sqrt g c (.free i) ∧ mem b = devHits A sqrt g c (.filled i) := by
  have hk : k < clouds.length := (List.getElem?_eq_some_iff.1 hc).1
  have hk' : k < numTrackingGrids clouds := lt_of_lt_of_le hk (le_max_left _ _)
  have hok := helper_api hh hN
  obtain ⟨-, rfl⟩ := countersRun_iff.1 h
  have hlen : c.points.length < 2 ^ 31 := by
    have := (helper_launch hh c (List.mem_of_getElem? hc)).1
    omega
  obtain ⟨e1, e2, e3⟩ := devMarks_count (A := A) (sqrt := sqrt) (c := c) hi
  refine ⟨flatAddr g.dims k (.free i), flatAddr g.dims k (.filled i), (hok k hk' i hi 0 (by norm_num)).2,
    (hok k hk' i hi 1 (by norm_num)).2, ?_, ?_⟩
  · unfold deviceThreads
    rw [(deviceThreads_spec (A := A) (sqrt := sqrt) hok.ray (s := 0) (by rw [Nat.zero_add]; exact le_max_left _ _)
      (helper_launch hh)).2, counter_value hk' hi, hc, Option.map_some, Option.getD_some, e1,
      wrap32_small (by positivity) (by omega)]
  · unfold deviceThreads
    rw [(deviceThreads_spec (A := A) (sqrt := sqrt) hok.ray (s := 0) (by rw [Nat.zero_add]; exact le_max_left _ _)
      (helper_launch hh)).2, counter_value hk' hi, hc, Option.map_some, Option.getD_some, e2,
      wrap32_small (by positivity) (by omega)]

/-- C57: everything a device voxelizer can leave behind, for any arithmetic: no point is undefined behaviour, and the
result is the filter applied to the true hit counts of each camera.  There is one result, whatever the schedule, the block
size and the API. -/
theorem C57_device_voxelizer {K : Type} {clouds : List (DevCloud F)} (hh : Helper api clouds)
    (hN : g.dims.total * 2 * numTrackingGrids clouds < 2 ^ 31) {o : FilterOptions} {static output output' : VoxMap K}
    (hd : static.dims = g.dims) :
    DeviceVoxelizeRuns api A sqrt g o clouds static output output' ↔
      (∀ c ∈ clouds, ∀ x ∈ c.points, (kernelPoint A sqrt g c x).isSome) ∧
      ∃ tracks, List.Forall₂ (HoldsHits A sqrt g) clouds tracks ∧ DeviceFilterRuns static o tracks output output' := by
  have hok := helper_api hh hN
  have hlaunch := helper_launch hh
  have hlen : ∀ c ∈ clouds, c.points.length < 2 ^ 31 := fun c hc => by
    have := (hlaunch c hc).1
    omega
  obtain ⟨hdef, hflat⟩ := deviceThreads_spec (A := A) (sqrt := sqrt) hok.ray (clouds := clouds) (s := 0)
    (by rw [Nat.zero_add]; exact le_max_left _ _) hlaunch
  have hcell : ∀ v < static.dims.total, ∀ occ, bufferFilterCell api g.dims o
      (trackingElements g.dims.total (numTrackingGrids clouds))
      (counterMem (clouds.zipIdx.flatMap fun c => (devMarks A sqrt g c.1).map (flatAddr g.dims c.2)))
      (numTrackingGrids clouds) v occ =
      o.deviceFilterCell ((if hitTracks A sqrt g clouds = [] then [fun _ => (0, 0)] else hitTracks A sqrt g clouds).map
        fun tr => tr v) occ := by
    intro v hv occ
    rw [hd] at hv
    obtain ⟨i, hi, rfl⟩ := exists_cell hv
    unfold bufferFilterCell
    by_cases ho : occ.le .half = true
    · rw [if_pos ho, readCounters_eq hok _ hi fun k hk => List.mem_range.1 hk, Option.bind_some]
      congr 1
      have hval : ∀ k < numTrackingGrids clouds, ∀ m : Mark, m.cell = i → _ := fun k hk m hm =>
        counter_value (A := A) (sqrt := sqrt) (g := g) (clouds := clouds) hk (m := m) (by rw [hm]; exact hi)
      by_cases hnil : clouds = []
      · subst hnil
        simp [numTrackingGrids, hitTracks, counterMem, wrap32]
      · have hne : hitTracks A sqrt g clouds ≠ [] := by simpa [hitTracks] using hnil
        rw [if_neg hne]
        have hn : numTrackingGrids clouds = clouds.length := by
          unfold numTrackingGrids
          have := List.length_pos_iff.2 hnil
          omega
        apply List.ext_getElem
        · simp [hitTracks, hn]
        · intro k hk1 hk2
          have hk : k < clouds.length := by simpa [hitTracks] using hk2
          obtain ⟨f1, f2⟩ := countP_free hi (ms := devMarks A sqrt g clouds[k]) fun m hm => devMarks_inside hm
          simp only [List.getElem_map, List.getElem_range, hitTracks]
          rw [hval k (by omega) (.free i) rfl, hval k (by omega) (.filled i) rfl, List.getElem?_eq_getElem hk]
          unfold trackOf
          rw [f1, f2]
          rfl
    · rw [if_neg ho, deviceFilterCell_keep]
      have : occ.le Fl.half = false := by simpa using ho
      exact this
  have hrun : ∀ mem, CountersRun
      (deviceThreads api A sqrt g (trackingElements g.dims.total (numTrackingGrids clouds)) clouds) mem ↔
      (∀ c ∈ clouds, DevCloudOk A sqrt g c) ∧
        mem = counterMem (clouds.zipIdx.flatMap fun c => (devMarks A sqrt g c.1).map (flatAddr g.dims c.2)) := by
    intro mem
    rw [countersRun_iff]
    unfold deviceThreads
    rw [hdef, hflat]
  constructor
  · rintro ⟨mem, hmem, data', hf, rfl⟩
    obtain ⟨h1, rfl⟩ := (hrun mem).1 hmem
    refine ⟨h1, hitTracks A sqrt g clouds, hitTracks_holds hlen, data', ?_, rfl⟩
    exact (filterRuns_congr hcell _ _).1 hf
  · rintro ⟨h1, tracks, htr, data', hf, rfl⟩
    refine ⟨_, (hrun _).2 ⟨h1, rfl⟩, data', ?_, rfl⟩
    refine (filterRuns_congr hcell _ _).2 ?_
    obtain ⟨he, hv⟩ := holdsHits_cell htr (hitTracks_holds (A := A) (sqrt := sqrt) (g := g) hlen)
    refine (filterRuns_congr (fun v hv' occ => ?_) _ _).1 hf
    rw [hd] at hv'
    by_cases hnil : tracks = []
    · rw [if_pos hnil, if_pos (he.1 hnil)]
    · rw [if_neg hnil, if_neg (fun h => hnil (he.2 h)), hv v hv']

/-- C57: one result, for every schedule, block size and API. -/
theorem C57_one_result {K : Type} {api' : DeviceApi} {clouds : List (DevCloud F)} (hh : Helper api clouds)
    (hh' : Helper api' clouds) (hN : g.dims.total * 2 * numTrackingGrids clouds < 2 ^ 31) {o : FilterOptions}
    {static output out out' : VoxMap K} (hd : static.dims = g.dims)
    (h : DeviceVoxelizeRuns api A sqrt g o clouds static output out)
    (h' : DeviceVoxelizeRuns api' A sqrt g o clouds static output out') : out = out' := by
  obtain ⟨-, tracks, htr, data, hf, rfl⟩ := (C57_device_voxelizer hh hN hd).1 h
  obtain ⟨-, tracks', htr', data', hf', rfl⟩ := (C57_device_voxelizer hh' hN hd).1 h'
  obtain ⟨he, hv⟩ := holdsHits_cell htr htr'
  have hf'' := (filterRuns_congr (cell' := fun v => o.deviceFilterCell
      ((if tracks' = [] then [fun _ => (0, 0)] else tracks').map fun tr => tr v)) (fun v hv' occ => by
    rw [hd] at hv'
    by_cases hnil : tracks = []
    · rw [if_pos hnil, if_pos (he.1 hnil)]
    · rw [if_neg hnil, if_neg (fun h => hnil (he.2 h)), hv v hv']) _ _).1 hf
  obtain ⟨-, rfl⟩ := filterRuns_iff.1 hf''
  obtain ⟨-, rfl⟩ := filterRuns_iff.1 hf'
  rfl

/-- C57: `point_index * 3 + 2` is computed in 32 bits (cuda_voxelization_helpers.cu:92-94,
opencl_voxelization_helpers.cc:71-73): a cloud of more than 715827882 points is undefined behaviour on a device, whatever
the points are. -/
theorem C57_large_clouds_undefined {K : Type} (hapi : api = openclApi ∨ ∃ T : ℕ, 0 < T ∧ api = cudaApi T)
    {clouds : List (DevCloud F)} {c : DevCloud F} (hc : c ∈ clouds) (hlen : 715827882 < c.points.length)
    {o : FilterOptions} {static output output' : VoxMap K} :
    ¬ DeviceVoxelizeRuns api A sqrt g o clouds static output output' := by
  rintro ⟨mem, hmem, -⟩
  have hall := (countersRun_iff.1 hmem).1
  obtain ⟨k, hk, rfl⟩ := List.mem_iff_getElem.1 hc
  have hz : (clouds[k], k) ∈ clouds.zipIdx := by
    rw [List.mem_zipIdx_iff_getElem?]
    exact List.getElem?_eq_getElem hk
  have hne : clouds[k].points ≠ [] := by
    intro h
    rw [h] at hlen
    simp at hlen
  have hthread : ∀ t ∈ launchThreads api A sqrt g (trackingElements g.dims.total (numTrackingGrids clouds)) clouds[k] k,
      t.isSome := fun t ht => hall t (List.mem_flatMap.2 ⟨_, hz, ht⟩)
  unfold launchThreads at hthread
  rw [if_neg hne] at hthread
  have hnone : kernelThread api A sqrt g (trackingElements g.dims.total (numTrackingGrids clouds)) k clouds[k] 715827882 =
      none := by
    unfold kernelThread
    rw [List.getElem?_eq_getElem hlen]
    dsimp only
    have : int32 (((715827882 : ℕ) : ℤ) * 3 + 2) = none := by decide +kernel
    rw [this]
    rfl
  have hlaunch : ∀ m, api.launch clouds[k].points.length = some m → clouds[k].points.length ≤ m := by
    intro m hm
    generalize clouds[k].points.length = n at *
    rcases hapi with rfl | ⟨T, hT, rfl⟩
    · exact le_of_eq (Option.some.inj hm)
    · dsimp only [cudaApi] at hm
      unfold int32 at hm
      split_ifs at hm with hi
      · rw [Option.map_some, Option.some.injEq] at hm
        have h3 := Int.emod_lt_of_pos ((n : ℤ) + (T - 1)) (show (0 : ℤ) < T by exact_mod_cast hT)
        have h4 := Int.mul_ediv_add_emod ((n : ℤ) + (T - 1)) T
        rw [Int.mul_comm] at h4
        generalize ((n : ℤ) + (T - 1)) / T * T = y at *
        omega
      · cases hm
  rcases hl : api.launch clouds[k].points.length with _ | m
  · rw [hl] at hthread
    simp at hthread
  · rw [hl] at hthread
    have := hthread _ (List.mem_map_of_mem (List.mem_range.2 (lt_of_lt_of_le hlen (hlaunch m hl))))
    rw [hnone] at this
    cases this

/-! ### The decision of the device filter -/

theorem kernelDec_some {pct : ℚ} {t : ℤ} (ht : 1 ≤ t) {c : ℤ × ℤ} (h1 : 0 ≤ c.1) (h2 : 0 ≤ c.2) (h3 : c.1 + c.2 ≤ 2 ^ 24) :
    ∃ r, kernelDec (.fin pct) t c = some r ∧
      (r = .filled ↔ SawFilled roundFloat pct t c) ∧ (r = .free ↔ SawFree roundFloat pct t c) := by
  unfold kernelDec
  simp only
  unfold SawFilled SawFree
  by_cases hth : c.2 ≥ t
  · rw [if_pos hth]
    by_cases hf : c.1 > 0
    · rw [if_pos ⟨hf, by omega⟩]
      have hi : int32 (c.1 + c.2) = some (c.1 + c.2) := by unfold int32; rw [if_pos]; omega
      rw [hi, Option.map_some, roundFloat_int (by rw [abs_le]; omega), roundFloat_int (by rw [abs_le]; omega)]
      have hne : ((c.1 + c.2 : ℤ) : ℚ) ≠ 0 := by
        have : c.1 + c.2 ≠ 0 := by omega
        exact_mod_cast this
      refine ⟨_, rfl, ?_, ?_⟩
      · unfold Fl.div
        simp only [hne, if_false, Fl.le, decide_eq_true_eq]
        push_cast
        split_ifs with hle
        · simp only [reduceCtorEq, false_iff, not_and, not_or, not_lt]
          intro _
          exact ⟨by omega, hle⟩
        · simp only [true_iff]
          exact ⟨hth, Or.inr (not_le.1 hle)⟩
      · unfold Fl.div
        simp only [hne, if_false, Fl.le, decide_eq_true_eq]
        push_cast
        split_ifs with hle
        · simp only [true_iff]
          exact ⟨hf, Or.inr hle⟩
        · simp only [reduceCtorEq, false_iff, not_and, not_or]
          intro _
          exact ⟨by omega, hle⟩
    · have h0 : c.1 = 0 := by omega
      rw [if_neg (by omega), if_neg hf, if_pos (by omega)]
      refine ⟨_, rfl, ?_, ?_⟩
      · simp only [true_iff]; exact ⟨hth, Or.inl h0⟩
      · simp only [reduceCtorEq, false_iff]; rintro ⟨h, _⟩; omega
  · rw [if_neg hth]
    by_cases hf : c.1 > 0
    · rw [if_neg (by omega), if_pos hf]
      refine ⟨_, rfl, ?_, ?_⟩
      · simp only [reduceCtorEq, false_iff]; rintro ⟨h, _⟩; omega
      · simp only [true_iff]; exact ⟨hf, Or.inl (by omega)⟩
    · rw [if_neg (by omega), if_neg hf, if_neg (by omega)]
      refine ⟨_, rfl, ?_, ?_⟩
      · simp only [reduceCtorEq, false_iff]; rintro ⟨h, _⟩; omega
      · simp only [reduceCtorEq, false_iff]; rintro ⟨h, _⟩; omega

theorem kernel_decision {pct : ℚ} {t n : ℤ} {o : FilterOptions} (h : FilterOptions.make (.fin pct) t n = some o)
    {counts : List (ℤ × ℤ)} (hc : ∀ c ∈ counts, 0 ≤ c.1 ∧ 0 ≤ c.2 ∧ c.1 + c.2 ≤ 2 ^ 24) {occ : Fl}
    (hocc : occ.le (.fin (1 / 2)) = true) : o.deviceFilterCell counts occ = some (some
      (decision (SawFilled roundFloat (roundFloat pct) t) (SawFree roundFloat (roundFloat pct) t) n counts)) := by
  obtain ⟨rfl, ht, _⟩ := make_ok h
  unfold FilterOptions.deviceFilterCell kernelFilterCell
  rw [if_pos (show occ.le Fl.half = true from hocc)]
  simp only [kernelSeenBy_eq, Fl.toFloat]
  exact cell_decision fun c hcc => kernelDec_some ht (hc c hcc).1 (hc c hcc).2.1 (hc c hcc).2.2

theorem decision_nothing {r : ℚ → ℚ} {pct : ℚ} {t n : ℤ} (ht : 1 ≤ t) :
    decision (SawFilled r pct t) (SawFree r pct t) n [(0, 0)] = decision (SawFilled r pct t) (SawFree r pct t) n [] := by
  classical
  have h1 : ¬ SawFilled r pct t (0, 0) := by
    rintro ⟨h, _⟩
    dsimp only at h
    omega
  have h2 : ¬ SawFree r pct t (0, 0) := by
    rintro ⟨h, _⟩
    dsimp only at h
    omega
  unfold decision
  simp [h1, h2]

/-- The hit counts of all cameras at a cell. -/
noncomputable def devCounts (A : Arith F) (sqrt : F → F) (g : RayGrid F) (clouds : List (DevCloud F)) (i : IVec) :
    List (ℤ × ℤ) :=
  clouds.map fun c => ((devHits A sqrt g c (.free i) : ℤ), (devHits A sqrt g c (.filled i) : ℤ))

theorem holdsHits_counts {clouds : List (DevCloud F)} {i : IVec} (hi : CellInGrid (axisCells g.dims) i) :
    ∀ {tracks : List Track}, List.Forall₂ (HoldsHits A sqrt g) clouds tracks →
    tracks.map (fun tr => tr (dataIndex g.dims i)) = devCounts A sqrt g clouds i := by
  induction clouds with
  | nil => intro tracks h; cases h; rfl
  | cons c cs ih =>
    intro tracks h
    cases h with
    | cons h1 h2 =>
      rw [List.map_cons, ih h2, h1 i hi]
      rfl

theorem devCounts_ok {clouds : List (DevCloud F)} (hlen : ∀ c ∈ clouds, c.points.length ≤ 2 ^ 24) {i : IVec}
    (hi : CellInGrid (axisCells g.dims) i) :
    ∀ c ∈ devCounts A sqrt g clouds i, 0 ≤ c.1 ∧ 0 ≤ c.2 ∧ c.1 + c.2 ≤ 2 ^ 24 := by
  intro c hc
  obtain ⟨x, hx, rfl⟩ := List.mem_map.1 hc
  have := (devMarks_count (A := A) (sqrt := sqrt) (c := x) hi).2.2
  have := hlen x hx
  refine ⟨by positivity, by positivity, ?_⟩
  dsimp only
  omega

theorem cell_counts {clouds : List (DevCloud F)} {tracks : List Track}
    (htr : List.Forall₂ (HoldsHits A sqrt g) clouds tracks) {pct : ℚ} {t n : ℤ} {o : FilterOptions}
    (ho : FilterOptions.make (.fin pct) t n = some o) (hlen : ∀ c ∈ clouds, c.points.length ≤ 2 ^ 24) {i : IVec}
    (hi : CellInGrid (axisCells g.dims) i) {occ : Fl} (hocc : occ.le (.fin (1 / 2)) = true) :
    o.deviceFilterCell ((if tracks = [] then [fun _ => (0, 0)] else tracks).map fun tr => tr (dataIndex g.dims i)) occ =
      some (some (decision (SawFilled roundFloat (roundFloat pct) t) (SawFree roundFloat (roundFloat pct) t) n
        (devCounts A sqrt g clouds i))) := by
  have hcnt := holdsHits_counts hi htr
  by_cases hnil : tracks = []
  · rw [if_pos hnil]
    rw [hnil] at hcnt
    rw [← hcnt, List.map_nil, ← decision_nothing (make_ok ho).2.1]
    exact kernel_decision ho (by simp) hocc
  · rw [if_neg hnil, hcnt]
    exact kernel_decision ho (devCounts_ok hlen hi) hocc

/-- C57, decision: with at most 2^24 points per camera, the occupancy of every cell that is not filled in the static
environment is the documented decision, in `float`, on the numbers of rays of each camera through and into that cell. -/
theorem C57_device_decision {K : Type} {clouds : List (DevCloud F)} (hh : Helper api clouds)
    (hN : g.dims.total * 2 * numTrackingGrids clouds < 2 ^ 31) {pct : ℚ} {t n : ℤ} {o : FilterOptions}
    (ho : FilterOptions.make (.fin pct) t n = some o) (hlen : ∀ c ∈ clouds, c.points.length ≤ 2 ^ 24)
    {static output output' : VoxMap K} (hd : static.dims = g.dims)
    (h : DeviceVoxelizeRuns api A sqrt g o clouds static output output') {i : IVec} (hi : CellInGrid (axisCells g.dims) i)
    (hocc : (static.data (dataIndex g.dims i)).le (.fin (1 / 2)) = true) :
    output'.data (dataIndex g.dims i) = decision (SawFilled roundFloat (roundFloat pct) t)
      (SawFree roundFloat (roundFloat pct) t) n (devCounts A sqrt g clouds i) := by
  obtain ⟨-, tracks, htr, data, hf, rfl⟩ := (C57_device_voxelizer hh hN hd).1 h
  obtain ⟨-, rfl⟩ := filterRuns_iff.1 hf
  have hv := dataIndex_lt hi
  dsimp only
  rw [hd, if_pos hv]
  unfold newVal
  dsimp only
  rw [cell_counts htr ho hlen hi hocc]
  rfl

/-- C57, definedness: the voxelization has a result exactly if no point's ray runs into undefined behaviour. -/
theorem C57_device_defined {K : Type} {clouds : List (DevCloud F)} (hh : Helper api clouds)
    (hN : g.dims.total * 2 * numTrackingGrids clouds < 2 ^ 31) {pct : ℚ} {t n : ℤ} {o : FilterOptions}
    (ho : FilterOptions.make (.fin pct) t n = some o) (hlen : ∀ c ∈ clouds, c.points.length ≤ 2 ^ 24)
    {static output : VoxMap K} (hd : static.dims = g.dims) :
    (∃ output', DeviceVoxelizeRuns api A sqrt g o clouds static output output') ↔
      ∀ c ∈ clouds, ∀ x ∈ c.points, (kernelPoint A sqrt g c x).isSome := by
  constructor
  · rintro ⟨output', h⟩
    exact ((C57_device_voxelizer hh hN hd).1 h).1
  · intro h
    have hlen' : ∀ c ∈ clouds, c.points.length < 2 ^ 31 := fun c hc => lt_of_le_of_lt (hlen c hc) (by norm_num)
    have htr := hitTracks_holds (A := A) (sqrt := sqrt) (g := g) hlen'
    refine ⟨_, (C57_device_voxelizer hh hN hd).2 ⟨h, _, htr, _, filterRuns_iff.2 ⟨fun v hv => ?_, rfl⟩, rfl⟩⟩
    rw [hd] at hv
    obtain ⟨i, hi, rfl⟩ := exists_cell hv
    by_cases hocc : (static.data (dataIndex g.dims i)).le (.fin (1 / 2)) = true
    · rw [cell_counts htr ho hlen hi hocc]
      rfl
    · rw [deviceFilterCell_keep (by simpa using hocc)]
      rfl

end

/-! ### Exact arithmetic: devices and CPU agree -/

/-- A camera: the sixteen values of the transform to the grid frame, column by column, the range and the points. -/
structure Camera where
  tf : ℕ → ℚ
  range : WithTop ℚ
  points : List (Option (Vec ℚ))

/-- The camera as the kernels see it. -/
def Camera.dev (c : Camera) : DevCloud Fl :=
  ⟨fun k => .fin (c.tf k), toFl c.range, c.points.map (Option.map fun x a => .fin (x a))⟩

/-- The camera as the CPU code sees it. -/
def Camera.cpu (c : Camera) : Cloud ℚ :=
  ⟨fun x a => c.tf a * x 0 + c.tf (4 + a) * x 1 + c.tf (8 + a) * x 2 + c.tf (12 + a), c.range, c.points⟩

/-- `sqrt` gives the lengths of the camera's rays as `norm` does. -/
def SqrtOk (sqrt : Fl → Fl) (norm : Vec ℚ → ℚ) (c : Cloud ℚ) : Prop :=
  ∀ x, some x ∈ c.points → sqrt (.fin ((c.tf x 0 - sensor c 0) * (c.tf x 0 - sensor c 0) +
    (c.tf x 1 - sensor c 1) * (c.tf x 1 - sensor c 1) + (c.tf x 2 - sensor c 2) * (c.tf x 2 - sensor c 2))) =
    .fin (norm fun a => c.tf x a - sensor c a)

theorem kernelPoint_exact {sqrt : Fl → Fl} {norm : Vec ℚ → ℚ} {d : Dims} {s : ℚ} (hs : 0 < s) {c : Camera}
    (hg : GoodCloud norm c.cpu) (hsq : SqrtOk sqrt norm c.cpu) {x : Option (Vec ℚ)} (hx : x ∈ c.points) :
    kernelPoint exactArith sqrt (exactGrid d s) c.dev (x.map fun x a => .fin (x a)) = pointMarks d s norm c.cpu x := by
  cases x with
  | none => rfl
  | some x =>
    have ho : kernelOrigin c.dev.tf = fun a => .fin (sensor c.cpu a) := by
      funext a
      unfold kernelOrigin sensor
      simp [Camera.dev, Camera.cpu]
    have hp : kernelTransform exactArith c.dev.tf (fun a => .fin (x a)) = fun a => .fin (c.cpu.tf x a) := rfl
    have hlen : flLength exactArith sqrt (fun a => .fin (sensor c.cpu a)) (fun a => .fin (c.cpu.tf x a)) =
        .fin (norm fun a => c.cpu.tf x a - sensor c.cpu a) := hsq x hx
    show flRaycast exactArith (exactGrid d s) (kernelOrigin c.dev.tf) (kernelTransform exactArith c.dev.tf fun a => .fin (x a))
      (flLength exactArith sqrt (kernelOrigin c.dev.tf) (kernelTransform exactArith c.dev.tf fun a => .fin (x a)))
      c.dev.range = raycast d s (sensor c.cpu) (c.cpu.tf x) (norm fun a => c.cpu.tf x a - sensor c.cpu a) c.range
    rw [ho, hp, hlen]
    exact C56_exact d hs (hg.2 x hx) hg.1

/-- C57, devices and CPU: in exact arithmetic a device voxelizer leaves exactly what the CPU voxelizer leaves, for
cameras whose rays have the lengths `norm` says, a free-percentage `m / 2^j`, clouds small enough for `float` in the filter,
buffers below 2^31 counters and an output that starts as the static environment.
Missing: rounding in the rays (`C56_device_loses_free_cells`), other percentages (`C35_filters_differ`), larger buffers
(`C47_cuda_filter_out_of_bounds`), other outputs (`C33_cpu_ignores_static_occupancy`). -/
theorem C57_devices_equal_cpu_partial {api : DeviceApi} {sqrt : Fl → Fl} {norm : Vec ℚ → ℚ} {static output' : VoxMap ℚ}
    (hs : 0 < static.cellSize) {cams : List Camera} (hh : Helper api (cams.map Camera.dev))
    (hN : static.dims.total * 2 * numTrackingGrids (cams.map Camera.dev) < 2 ^ 31)
    {m : ℤ} {j : ℕ} (hj : j ≤ 24) {t n : ℤ} {o : FilterOptions}
    (ho : FilterOptions.make (.fin ((m : ℚ) / 2 ^ j)) t n = some o)
    (hlen : ∀ c ∈ cams, c.points.length * 2 ^ j ≤ 2 ^ 24) (hg : ∀ c ∈ cams, GoodCloud norm c.cpu)
    (hsq : ∀ c ∈ cams, SqrtOk sqrt norm c.cpu) :
    DeviceVoxelizeRuns api exactArith sqrt (exactGrid static.dims static.cellSize) o (cams.map Camera.dev) static static output' ↔
      CpuVoxelizeRuns norm static o (cams.map Camera.cpu) static output' := by
  have hpow : 0 < 2 ^ j := by positivity
  have hlen' : ∀ c ∈ cams, c.points.length ≤ 2 ^ 24 := fun c hc =>
    (Nat.le_mul_of_pos_right _ hpow).trans (hlen c hc)
  have hmarks : ∀ c ∈ cams, devMarks exactArith sqrt (exactGrid static.dims static.cellSize) c.dev =
      cloudMarks static.dims static.cellSize norm c.cpu := by
    intro c hc
    unfold devMarks cloudMarks
    show (c.points.map _).flatMap _ = c.points.flatMap _
    rw [List.flatMap_map, List.flatMap_def, List.flatMap_def]
    congr 1
    apply List.map_congr_left
    intro x hx
    rw [kernelPoint_exact hs (hg c hc) (hsq c hc) hx]
  have hok : (∀ c ∈ cams.map Camera.dev, ∀ x ∈ c.points,
      (kernelPoint exactArith sqrt (exactGrid static.dims static.cellSize) c x).isSome) ↔
      ∀ c ∈ cams.map Camera.cpu, CloudOk static.dims static.cellSize norm c := by
    rw [List.forall_mem_map, List.forall_mem_map]
    refine forall₂_congr fun c hc => ?_
    unfold CloudOk
    show (∀ x ∈ c.points.map _, _) ↔ ∀ x ∈ c.points, _
    rw [List.forall_mem_map]
    refine forall₂_congr fun x hx => ?_
    rw [kernelPoint_exact hs (hg c hc) (hsq c hc) hx]
  have htracks : hitTracks exactArith sqrt (exactGrid static.dims static.cellSize) (cams.map Camera.dev) =
      (cams.map Camera.cpu).map fun c => trackOf static.dims (cloudMarks static.dims static.cellSize norm c) := by
    unfold hitTracks
    rw [List.map_map, List.map_map]
    apply List.map_congr_left
    intro c hc
    simp only [Function.comp_apply, hmarks c hc]
    rfl
  have hholds := hitTracks_holds (A := exactArith) (sqrt := sqrt) (g := exactGrid static.dims static.cellSize)
    (clouds := cams.map Camera.dev) (by
      intro c hc
      obtain ⟨c', hc', rfl⟩ := List.mem_map.1 hc
      have := hlen' c' hc'
      show (c'.points.map _).length < _
      rw [List.length_map]
      omega)
  have hcounts : ∀ tr ∈ hitTracks exactArith sqrt (exactGrid static.dims static.cellSize) (cams.map Camera.dev),
      ∀ v < static.dims.total, 0 ≤ (tr v).1 ∧ 0 ≤ (tr v).2 ∧ ((tr v).1 + (tr v).2) * 2 ^ j ≤ 2 ^ 24 := by
    intro tr htr v hv
    obtain ⟨i, hi, rfl⟩ := exists_cell hv
    obtain ⟨k, hk, hktr⟩ := List.mem_iff_getElem.1 htr
    have hk' : k < cams.length := by simpa [hitTracks] using hk
    have hkk := (List.forall₂_iff_get.1 hholds).2 k (by simpa using hk') hk i hi
    rw [List.get_eq_getElem, hktr] at hkk
    have hkk' : tr (dataIndex static.dims i) = _ := hkk
    rw [hkk']
    have h3 := (devMarks_count (A := exactArith) (sqrt := sqrt) (g := exactGrid static.dims static.cellSize)
      (c := (cams.map Camera.dev).get ⟨k, by simpa using hk'⟩) hi).2.2
    have h4 : ((cams.map Camera.dev).get ⟨k, by simpa using hk'⟩).points.length * 2 ^ j ≤ 2 ^ 24 := by
      have := hlen cams[k] (List.getElem_mem hk')
      simpa [Camera.dev] using this
    refine ⟨by positivity, by positivity, ?_⟩
    have h5 := (Nat.mul_le_mul_right (2 ^ j) h3).trans h4
    dsimp only
    exact_mod_cast h5
  rw [C57_device_voxelizer hh hN rfl, hok]
  have hcpu : CpuVoxelizeRuns norm static o (cams.map Camera.cpu) static output' ↔
      (∀ c ∈ cams.map Camera.cpu, CloudOk static.dims static.cellSize norm c) ∧
      CpuFilterRuns o (hitTracks exactArith sqrt (exactGrid static.dims static.cellSize) (cams.map Camera.dev))
        static output' := by
    rw [cpuRuns_iff, htracks]
    refine and_congr_right fun _ => ?_
    unfold CpuFilterRuns
    constructor
    · rintro ⟨h1, rfl⟩
      refine ⟨_, filterRuns_iff.2 ⟨?_, rfl⟩, ?_⟩
      · intro v hv
        have := h1 v hv
        unfold hits at this
        rw [List.map_map]
        exact this
      · unfold filterData hits
        simp only [List.map_map]
        rfl
    · rintro ⟨data, h1, rfl⟩
      obtain ⟨h2, rfl⟩ := filterRuns_iff.1 h1
      refine ⟨?_, ?_⟩
      · intro v hv
        have := h2 v hv
        rw [List.map_map] at this
        unfold hits
        exact this
      · unfold filterData hits
        simp only [List.map_map]
        rfl
  rw [hcpu]
  refine and_congr_right fun _ => ?_
  rw [← C35_filters_agree_partial hj ho hcounts]
  constructor
  · rintro ⟨tracks, htr, data, hf, rfl⟩
    obtain ⟨he, hv⟩ := holdsHits_cell htr hholds
    refine ⟨data, (filterRuns_congr (fun v hv' occ => ?_) _ _).1 hf, rfl⟩
    by_cases hnil : tracks = []
    · rw [if_pos hnil, if_pos (he.1 hnil)]
    · rw [if_neg hnil, if_neg (fun h => hnil (he.2 h)), hv v hv']
  · exact fun h => ⟨_, hholds, h⟩

/-! ### Concrete cases -/

/-- A sensor above the two cells of `twoCells`, in line with them, that measures a point in the first cell. -/
def lineCamera : Camera := ⟨fun k => if k = 0 ∨ k = 5 ∨ k = 10 then 1 else if k = 12 then 10 else if k = 13 ∨ k = 14 then 1 / 2 else 0,
  ⊤, [some ![-19 / 2, 0, 0], none]⟩

/-- The two cells, unknown. -/
def lineMap : VoxMap ℚ := ⟨true, ⟨2, 1, 1⟩, 1, fun _ => .fin (1 / 2)⟩

theorem line_helper : Helper (F := Fl) (cudaApi 256) [lineCamera.dev] :=
  .inr ⟨256, by norm_num, rfl, by simp [lineCamera, Camera.dev]⟩

/-- The hypotheses of `C57_devices_equal_cpu_partial` (and of the theorems before) hold for this camera. -/
example (sqrt : Fl → Fl) (h : sqrt (.fin (361 / 4)) = .fin (19 / 2)) (out : VoxMap ℚ) :
    DeviceVoxelizeRuns (cudaApi 256) exactArith sqrt (exactGrid lineMap.dims lineMap.cellSize) ⟨.fin (1 / 2), 1, 1⟩
      ([lineCamera].map Camera.dev) lineMap lineMap out ↔
    CpuVoxelizeRuns (fun v => |v 0|) lineMap ⟨.fin (1 / 2), 1, 1⟩ ([lineCamera].map Camera.cpu) lineMap out := by
  have hpt : ∀ x, some x ∈ lineCamera.points → x = ![-19 / 2, 0, 0] := by
    intro x hx
    simpa [lineCamera] using hx
  refine C57_devices_equal_cpu_partial (m := 1) (j := 1) (by norm_num [lineMap]) line_helper ?_ (by norm_num) (t := 1) (n := 1)
    (by decide +kernel) ?_ ?_ ?_
  · decide
  · simp [lineCamera]
  · intro c hc
    obtain rfl := List.mem_singleton.1 hc
    refine ⟨le_top, ?_⟩
    intro x hx
    rw [hpt x hx]
    unfold IsDist
    decide +kernel
  · intro c hc
    obtain rfl := List.mem_singleton.1 hc
    intro x hx
    rw [hpt x hx]
    have e1 : ((lineCamera.cpu.tf ![-19 / 2, 0, 0] 0 - sensor lineCamera.cpu 0) *
        (lineCamera.cpu.tf ![-19 / 2, 0, 0] 0 - sensor lineCamera.cpu 0) +
        (lineCamera.cpu.tf ![-19 / 2, 0, 0] 1 - sensor lineCamera.cpu 1) *
        (lineCamera.cpu.tf ![-19 / 2, 0, 0] 1 - sensor lineCamera.cpu 1) +
        (lineCamera.cpu.tf ![-19 / 2, 0, 0] 2 - sensor lineCamera.cpu 2) *
        (lineCamera.cpu.tf ![-19 / 2, 0, 0] 2 - sensor lineCamera.cpu 2)) = (361 / 4 : ℚ) := by decide +kernel
    have e2 : |lineCamera.cpu.tf ![-19 / 2, 0, 0] 0 - sensor lineCamera.cpu 0| = (19 / 2 : ℚ) := by decide +kernel
    rw [e1, h]
    dsimp only
    rw [e2]

/-- C57: rounding in the rays changes results.  A sensor above the grid sees a point in the first of two cells.  The CPU
declares the cell in front of the point free, a device leaves it unknown. -/
theorem C57_device_misses_free_cell (sqrt : Fl → Fl) (h : sqrt (.fin (361 / 4)) = .fin (19 / 2)) :
    (∃ out, DeviceVoxelizeRuns (cudaApi 256) float32 sqrt twoCells ⟨.fin (1 / 2), 1, 1⟩ [lineCamera.dev] lineMap lineMap out) ∧
    (∀ out, DeviceVoxelizeRuns (cudaApi 256) float32 sqrt twoCells ⟨.fin (1 / 2), 1, 1⟩ [lineCamera.dev] lineMap lineMap out →
      out.data 0 = .fin 1 ∧ out.data 1 = .fin (1 / 2)) ∧
    ∀ out, CpuVoxelizeRuns (fun v => |v 0|) lineMap ⟨.fin (1 / 2), 1, 1⟩ [lineCamera.cpu] lineMap out →
      out.data 0 = .fin 1 ∧ out.data 1 = .fin 0 := by
  have ho : FilterOptions.make (.fin (1 / 2)) 1 1 = some ⟨.fin (1 / 2), 1, 1⟩ := by decide +kernel
  have hhalf : (Fl.fin (1 / 2)).le (.fin (1 / 2)) = true := by decide +kernel
  have hk : kernelPoint float32 sqrt twoCells lineCamera.dev (some fun a => .fin ((![-19 / 2, 0, 0] : Vec ℚ) a)) =
      some [.filled ![0, 0, 0]] := by
    have e : flLength float32 sqrt (kernelOrigin lineCamera.dev.tf)
        (kernelTransform float32 lineCamera.dev.tf fun a => .fin ((![-19 / 2, 0, 0] : Vec ℚ) a)) = .fin (19 / 2) := by
      rw [← h]
      unfold flLength
      dsimp only
      congr 1
      decide +kernel
    unfold kernelPoint
    dsimp only
    rw [e]
    decide +kernel
  have hall : ∀ c ∈ [lineCamera.dev], ∀ x ∈ c.points, (kernelPoint float32 sqrt twoCells c x).isSome := by
    intro c hc x hx
    obtain rfl := List.mem_singleton.1 hc
    have hx' : x = some (fun a => .fin ((![-19 / 2, 0, 0] : Vec ℚ) a)) ∨ x = none := by
      simpa [lineCamera, Camera.dev] using hx
    rcases hx' with rfl | rfl
    · rw [hk]; rfl
    · rfl
  have hmarks : devMarks float32 sqrt twoCells lineCamera.dev = [.filled ![0, 0, 0]] := by
    unfold devMarks
    show ([_, _] : List _).flatMap _ = _
    simp only [List.flatMap_cons, List.flatMap_nil]
    have h2 : (kernelPoint float32 sqrt twoCells lineCamera.dev
      (Option.map (fun x a => Fl.fin (x a)) (none : Option (Vec ℚ)))) = some [] := rfl
    have h1 : (kernelPoint float32 sqrt twoCells lineCamera.dev
      (Option.map (fun x a => Fl.fin (x a)) (some (![-19 / 2, 0, 0] : Vec ℚ)))) = some [.filled ![0, 0, 0]] := hk
    rw [h1, h2]
    rfl
  have hlen : ∀ c ∈ [lineCamera.dev], c.points.length ≤ 2 ^ 24 := by simp [lineCamera, Camera.dev]
  have hN : twoCells.dims.total * 2 * numTrackingGrids [lineCamera.dev] < 2 ^ 31 := by decide
  have hin : ∀ i : IVec, i = ![0, 0, 0] ∨ i = ![1, 0, 0] → CellInGrid (axisCells twoCells.dims) i := by
    rintro i (rfl | rfl) <;> (unfold CellInGrid; decide)
  refine ⟨(C57_device_defined line_helper hN ho hlen rfl).2 hall, ?_, ?_⟩
  · intro out hout
    have key : ∀ i, CellInGrid (axisCells twoCells.dims) i → out.data (dataIndex twoCells.dims i) = _ := fun i hi =>
      C57_device_decision line_helper hN ho hlen rfl hout hi hhalf
    have hcnt : ∀ i, CellInGrid (axisCells twoCells.dims) i → devCounts float32 sqrt twoCells [lineCamera.dev] i =
        [(((([.filled ![0, 0, 0]] : List Mark).count (.free i) : ℕ) : ℤ),
          ((([.filled ![0, 0, 0]] : List Mark).count (.filled i) : ℕ) : ℤ))] := by
      intro i hi
      obtain ⟨e1, e2, -⟩ := devMarks_count (A := float32) (sqrt := sqrt) (c := lineCamera.dev) hi
      rw [hmarks] at e1 e2
      rw [e1, e2]
      rfl
    have k0 := key _ (hin _ (.inl rfl))
    have k1 := key _ (hin _ (.inr rfl))
    rw [hcnt _ (hin _ (.inl rfl))] at k0
    rw [hcnt _ (hin _ (.inr rfl))] at k1
    have d0 := kernel_decision ho (counts := [(((([.filled ![0, 0, 0]] : List Mark).count (.free ![0, 0, 0]) : ℕ) : ℤ),
          ((([.filled ![0, 0, 0]] : List Mark).count (.filled ![0, 0, 0]) : ℕ) : ℤ))]) (by decide) hhalf
    have d1 := kernel_decision ho (counts := [(((([.filled ![0, 0, 0]] : List Mark).count (.free ![1, 0, 0]) : ℕ) : ℤ),
          ((([.filled ![0, 0, 0]] : List Mark).count (.filled ![1, 0, 0]) : ℕ) : ℤ))]) (by decide) hhalf
    rw [← Option.some.inj (Option.some.inj ((by decide +kernel : some (some (Fl.fin 1)) = _).trans d0))] at k0
    rw [← Option.some.inj (Option.some.inj ((by decide +kernel : some (some (Fl.fin (1 / 2))) = _).trans d1))] at k1
    exact ⟨k0, k1⟩
  · intro out hout
    have hin' : ∀ i : IVec, i = ![0, 0, 0] ∨ i = ![1, 0, 0] → CellInGrid (axisCells lineMap.dims) i := hin
    have key : ∀ i, CellInGrid (axisCells lineMap.dims) i → out.data (dataIndex lineMap.dims i) = _ := fun i hi =>
      C32_voxelizer_decision ho (by simp [lineCamera, Camera.cpu]) rfl hout hi hhalf
    have hm : cloudMarks lineMap.dims lineMap.cellSize (fun v : Vec ℚ => |v 0|) lineCamera.cpu =
        [.filled ![0, 0, 0], .free ![1, 0, 0]] := by decide +kernel
    have hcnt : ∀ i, CellInGrid (axisCells lineMap.dims) i → ([lineCamera.cpu].map fun c =>
        ((hitCount lineMap.dims lineMap.cellSize (fun v : Vec ℚ => |v 0|) c (.free i) : ℤ),
         (hitCount lineMap.dims lineMap.cellSize (fun v : Vec ℚ => |v 0|) c (.filled i) : ℤ))) =
        [((([.filled ![0, 0, 0], .free ![1, 0, 0]] : List Mark).countP (isFreeAt lineMap.dims (dataIndex lineMap.dims i)) : ℤ),
          (([.filled ![0, 0, 0], .free ![1, 0, 0]] : List Mark).countP (isFilledAt lineMap.dims (dataIndex lineMap.dims i)) : ℤ))] := by
      intro i hi
      obtain ⟨e1, e2, -⟩ := cloudMarks_count (s := lineMap.cellSize) (norm := fun v : Vec ℚ => |v 0|) (c := lineCamera.cpu) hi
      rw [hm] at e1 e2
      rw [e1, e2]
      rfl
    have k0 := key _ (hin' _ (.inl rfl))
    have k1 := key _ (hin' _ (.inr rfl))
    rw [hcnt _ (hin' _ (.inl rfl))] at k0
    rw [hcnt _ (hin' _ (.inr rfl))] at k1
    have d0 := C32_filter_decision ho (counts := [((([.filled ![0, 0, 0], .free ![1, 0, 0]] : List Mark).countP
        (isFreeAt lineMap.dims (dataIndex lineMap.dims ![0, 0, 0])) : ℤ), (([.filled ![0, 0, 0], .free ![1, 0, 0]] : List Mark).countP
          (isFilledAt lineMap.dims (dataIndex lineMap.dims ![0, 0, 0])) : ℤ))]) (by unfold CountsOk; decide) hhalf
    have d1 := C32_filter_decision ho (counts := [((([.filled ![0, 0, 0], .free ![1, 0, 0]] : List Mark).countP
        (isFreeAt lineMap.dims (dataIndex lineMap.dims ![1, 0, 0])) : ℤ), (([.filled ![0, 0, 0], .free ![1, 0, 0]] : List Mark).countP
          (isFilledAt lineMap.dims (dataIndex lineMap.dims ![1, 0, 0])) : ℤ))]) (by unfold CountsOk; decide) hhalf
    rw [← Option.some.inj (Option.some.inj ((by decide +kernel : some (some (Fl.fin 1)) = _).trans d0))] at k0
    rw [← Option.some.inj (Option.some.inj ((by decide +kernel : some (some (Fl.fin 0)) = _).trans d1))] at k1
    exact ⟨k0, k1⟩

end VGT
