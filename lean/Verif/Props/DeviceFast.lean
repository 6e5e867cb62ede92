import Verif.Model.DeviceFast
import Verif.Props.DeviceVoxelize

/-!
C85: the device voxelizers with any division in the filter kernel.
-/
set_option autoImplicit false

namespace VGT
open VGT.EDT VGT.Spec VGT.Par

/-- IEEE division of the two counts, converted to `float`. -/
def floatShare (a n : ℤ) : Fl := Fl.div roundFloat (.fin (roundFloat (a : ℚ))) (.fin (roundFloat (n : ℚ)))

/-- The per-camera decision. -/
def fastDec (share : ℤ → ℤ → Fl) (percent : Fl) (threshold : ℤ) (c : ℤ × ℤ) : Option SeenAs :=
  let filtered := if c.2 ≥ threshold then c.2 else 0
  if c.1 > 0 ∧ filtered > 0 then
    (int32 (c.1 + filtered)).map fun (sum : ℤ) => if percent.le (share c.1 sum) then .free else .filled
  else if c.1 > 0 then some .free
  else if filtered > 0 then some .filled
  else some .unknown

theorem fastSeenBy_eq (share : ℤ → ℤ → Fl) (percent : Fl) (threshold : ℤ) :
    ∀ l a b, fastSeenBy share percent threshold l a b = foldSeen (fastDec share percent threshold) l a b
  | [], _, _ => rfl
  | c :: cs, a, b => by
    unfold fastSeenBy foldSeen
    simp only [fastSeenBy_eq share percent threshold cs]
    have hk : fastDec share percent threshold c = (
      if c.1 > 0 ∧ (if c.2 ≥ threshold then c.2 else 0) > 0 then
        (int32 (c.1 + (if c.2 ≥ threshold then c.2 else 0))).map fun (sum : ℤ) => if percent.le (share c.1 sum) then .free else .filled
      else if c.1 > 0 then some .free
      else if (if c.2 ≥ threshold then c.2 else 0) > 0 then some .filled
      else some .unknown) := rfl
    rw [hk]
    generalize (if c.2 ≥ threshold then c.2 else 0) = filtered
    by_cases h1 : c.1 > 0 ∧ filtered > 0
    · rw [if_pos h1, if_pos h1]
      cases int32 (c.1 + filtered) with
      | none => rfl
      | some sum =>
        simp only [Option.map_some]
        by_cases h2 : percent.le (share c.1 sum) = true
        · rw [if_pos h2, if_pos h2]
        · rw [if_neg h2, if_neg h2]
    · rw [if_neg h1, if_neg h1]
      by_cases h2 : c.1 > 0
      · rw [if_pos h2, if_pos h2]
      · rw [if_neg h2, if_neg h2]
        by_cases h3 : filtered > 0
        · rw [if_pos h3, if_pos h3]
        · rw [if_neg h3, if_neg h3]

theorem fastSeenBy_float (percent : Fl) (threshold : ℤ) (l : List (ℤ × ℤ)) (a b : ℤ) :
    fastSeenBy floatShare percent threshold l a b = kernelSeenBy percent threshold l a b := by
  rw [fastSeenBy_eq, kernelSeenBy_eq]
  rfl

theorem fastFilterCell_float (api : DeviceApi) (d : Dims) (o : FilterOptions) (elements : ℤ) (mem : ℤ → ℤ) (grids : ℕ) :
    fastFilterCell floatShare api d o elements mem grids = bufferFilterCell api d o elements mem grids := by
  funext v occ
  unfold fastFilterCell bufferFilterCell FilterOptions.deviceFilterCell kernelFilterCell
  by_cases h : occ.le .half = true
  · simp only [h, if_true, fastSeenBy_float]
  · simp only [h, if_false, Bool.false_eq_true]

/-- With IEEE division these are the device voxelizers of C57. -/
theorem fastDeviceRuns_float {F K : Type} {api : DeviceApi} {A : Arith F} {sqrt : F → F} {g : RayGrid F} {o : FilterOptions}
    {clouds : List (DevCloud F)} {static output output' : VoxMap K} :
    FastDeviceRuns floatShare api A sqrt g o clouds static output output' ↔ DeviceVoxelizeRuns api A sqrt g o clouds static output output' := by
  unfold FastDeviceRuns DeviceVoxelizeRuns
  simp only [fastFilterCell_float]

section
variable {F K : Type} {share : ℤ → ℤ → Fl} {api : DeviceApi} {A : Arith F} {sqrt : F → F} {g : RayGrid F} {op : FilterOptions}
  {clouds : List (DevCloud F)} {static output output' : VoxMap K} {i : IVec}

theorem fast_dims (h : FastDeviceRuns share api A sqrt g op clouds static output output') : output'.dims = output.dims := by
  obtain ⟨_, _, _, _, rfl⟩ := h
  rfl

theorem fast_mem (hh : Helper api clouds) (hN : g.dims.total * 2 * numTrackingGrids clouds < 2 ^ 31) {mem : ℤ → ℤ}
    (h : CountersRun (deviceThreads api A sqrt g (trackingElements g.dims.total (numTrackingGrids clouds)) clouds) mem) :
    (∀ c ∈ clouds, DevCloudOk A sqrt g c) ∧
      mem = counterMem (clouds.zipIdx.flatMap fun c => (devMarks A sqrt g c.1).map (flatAddr g.dims c.2)) := by
  have hok := helper_api hh hN
  obtain ⟨hdef, hflat⟩ := deviceThreads_spec (A := A) (sqrt := sqrt) hok.ray (clouds := clouds) (s := 0)
    (by rw [Nat.zero_add]; exact le_max_left _ _) (helper_launch hh)
  rw [countersRun_iff] at h
  unfold deviceThreads at h
  rwa [hdef, hflat] at h

/-- No ray of a run is undefined. -/
theorem fast_points (hh : Helper api clouds) (hN : g.dims.total * 2 * numTrackingGrids clouds < 2 ^ 31)
    (h : FastDeviceRuns share api A sqrt g op clouds static output output') : ∀ c ∈ clouds, ∀ x ∈ c.points, (kernelPoint A sqrt g c x).isSome := by
  obtain ⟨mem, hm, -⟩ := h
  exact (fast_mem hh hN hm).1

/-- The counts a filter thread reads. -/
theorem fast_counts (hh : Helper api clouds) (hN : g.dims.total * 2 * numTrackingGrids clouds < 2 ^ 31) {mem : ℤ → ℤ}
    (h : CountersRun (deviceThreads api A sqrt g (trackingElements g.dims.total (numTrackingGrids clouds)) clouds) mem)
    (hi : CellInGrid (axisCells g.dims) i) :
    readCounters api g.dims (trackingElements g.dims.total (numTrackingGrids clouds)) mem (dataIndex g.dims i)
        (List.range (numTrackingGrids clouds)) =
      some (if clouds = [] then [(0, 0)] else devCounts A sqrt g clouds i) := by
  have hok := helper_api hh hN
  rw [readCounters_eq hok _ hi fun k hk => List.mem_range.1 hk]
  congr 1
  by_cases hnil : clouds = []
  · subst hnil
    obtain ⟨-, rfl⟩ := fast_mem hh hN h
    simp [numTrackingGrids, counterMem, wrap32]
  · rw [if_neg hnil]
    have hn : numTrackingGrids clouds = clouds.length := by
      unfold numTrackingGrids
      have := List.length_pos_iff.2 hnil
      omega
    unfold devCounts
    apply List.ext_getElem
    · simp [hn]
    · intro k hk1 hk2
      have hk : k < clouds.length := by simpa using hk2
      obtain ⟨a, b, ha, hb, ma, mb⟩ := C57_counters_exact hh hN h (List.getElem?_eq_getElem hk) hi
      have hk' : k < numTrackingGrids clouds := by omega
      have e0 := ha.symm.trans (hok k hk' i hi 0 (by norm_num)).2
      have e1 := hb.symm.trans (hok k hk' i hi 1 (by norm_num)).2
      cases e0
      cases e1
      simp only [List.getElem_map, List.getElem_range]
      exact Prod.ext ma mb

/-- What becomes of a cell that is not filled: the decision on the true counts. -/
theorem fast_cell (hh : Helper api clouds) (hN : g.dims.total * 2 * numTrackingGrids clouds < 2 ^ 31) (hd : static.dims = g.dims)
    (h : FastDeviceRuns share api A sqrt g op clouds static output output') (hi : CellInGrid (axisCells g.dims) i)
    (hocc : (static.data (dataIndex g.dims i)).le (.fin (1 / 2)) = true) :
    ∃ r, foldSeen (fastDec share op.percent.toFloat op.threshold) (if clouds = [] then [(0, 0)] else devCounts A sqrt g clouds i) 0 0 = some r ∧
      output'.data (dataIndex g.dims i) = if r.1 > 0 then .fin 1 else if r.2 ≥ op.cameras then .fin 0 else .half := by
  obtain ⟨mem, hm, data', hf, rfl⟩ := h
  obtain ⟨hs, rfl⟩ := filterRuns_iff.1 hf
  have hv := dataIndex_lt hi
  have hs := hs (dataIndex g.dims i) (by rw [hd]; exact hv)
  have hocc' : (static.data (dataIndex g.dims i)).le .half = true := hocc
  dsimp only
  rw [hd, if_pos hv]
  unfold newVal
  unfold fastFilterCell at hs ⊢
  rw [if_pos hocc', fast_counts hh hN hm hi, Option.bind_some, fastSeenBy_eq] at hs ⊢
  rw [Option.isSome_map] at hs
  obtain ⟨r, hr⟩ := Option.isSome_iff_exists.1 hs
  refine ⟨r, hr, ?_⟩
  rw [hr, Option.map_some]
  by_cases h1 : r.1 > 0
  · rw [if_pos h1, if_pos h1]; rfl
  · rw [if_neg h1, if_neg h1]
    by_cases h2 : r.2 ≥ op.cameras
    · rw [if_pos h2, if_pos h2]; rfl
    · rw [if_neg h2, if_neg h2]; rfl

theorem fastDec_some {percent : Fl} {t : ℤ} {c : ℤ × ℤ} (h2 : 0 ≤ c.2) (h3 : c.1 + c.2 < 2 ^ 31) :
    ∃ r, fastDec share percent t c = some r := by
  unfold fastDec
  dsimp only
  have hf : (if c.2 ≥ t then c.2 else 0) ≤ c.2 ∧ 0 ≤ (if c.2 ≥ t then c.2 else 0) := by
    split_ifs <;> omega
  generalize (if c.2 ≥ t then c.2 else 0) = f at hf
  split_ifs
  · unfold int32
    rw [if_pos (by omega)]
    exact ⟨_, rfl⟩
  · exact ⟨_, rfl⟩
  · exact ⟨_, rfl⟩
  · exact ⟨_, rfl⟩

/-- There is a result if no ray is undefined and clouds are not too large, whatever the division gives. -/
theorem fast_defined {pct : ℚ} {t k : ℤ} (hop : FilterOptions.make (.fin pct) t k = some op) (hh : Helper api clouds)
    (hN : g.dims.total * 2 * numTrackingGrids clouds < 2 ^ 31) (hlen : ∀ c ∈ clouds, c.points.length ≤ 2 ^ 24) (hd : static.dims = g.dims)
    (hdef : ∀ c ∈ clouds, ∀ x ∈ c.points, (kernelPoint A sqrt g c x).isSome) :
    ∃ output', FastDeviceRuns share api A sqrt g op clouds static output output' := by
  obtain ⟨_, mem, hm, -⟩ := (C57_device_defined (static := static) (output := output) hh hN hop hlen hd).2 hdef
  refine ⟨_, mem, hm, _, filterRuns_iff.2 ⟨fun v hv => ?_, rfl⟩, rfl⟩
  rw [hd] at hv
  obtain ⟨i, hi, rfl⟩ := exists_cell hv
  unfold fastFilterCell
  by_cases hocc : (static.data (dataIndex g.dims i)).le .half = true
  · rw [if_pos hocc, fast_counts hh hN hm hi, Option.bind_some, fastSeenBy_eq, Option.isSome_map, foldSeen_some]
    · rfl
    · intro y hy
      have h0 : 0 ≤ y.2 ∧ y.1 + y.2 ≤ 2 ^ 24 := by
        by_cases hnil : clouds = []
        · rw [if_pos hnil, List.mem_singleton] at hy
          subst hy
          norm_num
        · rw [if_neg hnil] at hy
          exact (devCounts_ok hlen hi y hy).2
      exact fastDec_some h0.1 (by omega)
  · rw [if_neg hocc]
    rfl

/-- Filled cells stay as they are. -/
theorem fast_keeps (hd : static.dims = g.dims) (h : FastDeviceRuns share api A sqrt g op clouds static output output') {v : ℕ}
    (hv : v < g.dims.total) (hocc : (static.data v).le (.fin (1 / 2)) = false) : output'.data v = static.data v := by
  obtain ⟨mem, hm, data', hf, rfl⟩ := h
  obtain ⟨-, rfl⟩ := filterRuns_iff.1 hf
  have hocc' : (static.data v).le .half = false := hocc
  dsimp only
  rw [hd, if_pos hv]
  unfold newVal
  unfold fastFilterCell
  rw [if_neg (by simp [hocc'])]
  rfl

/-- Division is right up to less than the reciprocal of the number of points. -/
def FairShare (share : ℤ → ℤ → Fl) (L : ℕ) : Prop :=
  ∀ a n : ℤ, 0 < a → a < n → n ≤ L → ∃ q, share a n = .fin q ∧ |q - a / n| * L < 1

theorem fastDec_filled {percent : Fl} {t : ℤ} {c : ℤ × ℤ} (h : fastDec share percent t c = some .filled) : t ≤ c.2 := by
  unfold fastDec at h
  dsimp only at h
  by_contra hc
  rw [if_neg (show ¬ c.2 ≥ t by omega), if_neg (by omega)] at h
  split_ifs at h <;> first | omega | cases h

theorem fastDec_of_count {L : ℕ} (hs : FairShare share L) (hL : L < 2 ^ 31) {t : ℤ} (ht : 1 ≤ t) {c : ℤ × ℤ}
    (h3 : c.1 + c.2 ≤ L) (hc : t ≤ c.2) : fastDec share (Fl.toFloat (.fin 1)) t c = some .filled := by
  have h0 : Fl.toFloat (.fin 1) = .fin 1 := by
    have : roundFloat (1 : ℚ) = 1 := by decide +kernel
    show Fl.fin (roundFloat 1) = _
    rw [this]
  rw [h0]
  unfold fastDec
  dsimp only
  rw [if_pos (show c.2 ≥ t from hc)]
  by_cases hz : c.1 > 0
  · rw [if_pos ⟨hz, by omega⟩]
    unfold int32
    rw [if_pos (by omega), Option.map_some]
    obtain ⟨q, hq, hq'⟩ := hs c.1 (c.1 + c.2) hz (by omega) h3
    rw [hq]
    have hlt : q < 1 := by
      by_contra hge
      push Not at hge
      have hn : (0 : ℚ) < ((c.1 + c.2 : ℤ) : ℚ) := by exact_mod_cast (by omega)
      have hnL : ((c.1 + c.2 : ℤ) : ℚ) ≤ L := by exact_mod_cast h3
      have h4 : ((c.1 : ℚ)) + 1 ≤ ((c.1 + c.2 : ℤ) : ℚ) := by exact_mod_cast (by omega)
      have h5 : (c.1 : ℚ) / ((c.1 + c.2 : ℤ) : ℚ) ≤ 1 - 1 / ((c.1 + c.2 : ℤ) : ℚ) := by
        rw [div_le_iff₀ hn, sub_mul, one_mul, one_div, inv_mul_cancel₀ hn.ne']
        linarith
      have h6 : 1 / ((c.1 + c.2 : ℤ) : ℚ) ≤ |q - c.1 / ((c.1 + c.2 : ℤ) : ℚ)| := le_trans (by linarith) (le_abs_self _)
      have h7 := mul_le_mul h6 hnL hn.le (abs_nonneg _)
      rw [one_div, inv_mul_cancel₀ hn.ne'] at h7
      linarith
    rw [if_neg (by simp [Fl.le, hlt])]
  · rw [if_neg (fun h => hz h.1), if_neg hz, if_pos (by omega)]

/-- A camera of which at least `t` points mark the cell filled makes it filled if the percentage is 1. -/
theorem fast_filled_of_count {L : ℕ} (hs : FairShare share L) (hL : L < 2 ^ 31) {t k : ℤ} (hop : FilterOptions.make (.fin 1) t k = some op)
    (hh : Helper api clouds) (hN : g.dims.total * 2 * numTrackingGrids clouds < 2 ^ 31) (hlen : ∀ c ∈ clouds, c.points.length ≤ L)
    (hd : static.dims = g.dims) (h : FastDeviceRuns share api A sqrt g op clouds static output output') (hi : CellInGrid (axisCells g.dims) i)
    (hocc : (static.data (dataIndex g.dims i)).le (.fin (1 / 2)) = true) {c : DevCloud F} (hc : c ∈ clouds)
    (hcnt : t ≤ devHits A sqrt g c (.filled i)) : output'.data (dataIndex g.dims i) = .fin 1 := by
  obtain ⟨r, hr, e⟩ := fast_cell hh hN hd h hi hocc
  obtain ⟨rfl, ht, -⟩ := make_ok hop
  rw [if_neg (List.ne_nil_of_mem hc)] at hr
  have hok : ∀ y ∈ devCounts A sqrt g clouds i, 0 ≤ y.1 ∧ 0 ≤ y.2 ∧ y.1 + y.2 ≤ L := by
    intro y hy
    obtain ⟨z, hz, rfl⟩ := List.mem_map.1 hy
    have h1 := (devMarks_count (A := A) (sqrt := sqrt) (c := z) hi).2.2
    have h2 := hlen z hz
    refine ⟨by positivity, by positivity, ?_⟩
    dsimp only
    omega
  rw [foldSeen_some fun y hy => by
    obtain ⟨-, h2, h3⟩ := hok y hy
    exact fastDec_some h2 (by omega)] at hr
  cases hr
  rw [e, if_pos]
  have hm : ((devHits A sqrt g c (.free i) : ℤ), (devHits A sqrt g c (.filled i) : ℤ)) ∈ devCounts A sqrt g clouds i :=
    List.mem_map.2 ⟨c, hc, rfl⟩
  obtain ⟨-, -, h3⟩ := hok _ hm
  have hpos := List.countP_pos_iff (p := fun y => decide (fastDec share (Fl.toFloat (.fin 1)) t y = some .filled)).2
    ⟨_, hm, decide_eq_true (fastDec_of_count hs hL ht h3 hcnt)⟩
  dsimp only
  omega

/-- A cell becomes 1 only if some camera marks it filled `threshold` times. -/
theorem fast_count_of_filled {pct : Fl} {t k : ℤ} (hop : FilterOptions.make pct t k = some op) (hh : Helper api clouds)
    (hN : g.dims.total * 2 * numTrackingGrids clouds < 2 ^ 31) (hd : static.dims = g.dims)
    (h : FastDeviceRuns share api A sqrt g op clouds static output output') (hi : CellInGrid (axisCells g.dims) i)
    (hocc : (static.data (dataIndex g.dims i)).le (.fin (1 / 2)) = true) (hone : output'.data (dataIndex g.dims i) = .fin 1) :
    ∃ c ∈ clouds, t ≤ devHits A sqrt g c (.filled i) := by
  obtain ⟨r, hr, e⟩ := fast_cell hh hN hd h hi hocc
  obtain ⟨rfl, ht, -⟩ := make_ok hop
  have hr1 : r.1 > 0 := by
    by_contra hc
    rw [e, if_neg hc] at hone
    unfold Fl.half at hone
    split_ifs at hone
    · have := Fl.fin.inj hone; norm_num at this
    · have := Fl.fin.inj hone; norm_num at this
  have hdec : ∀ y ∈ (if clouds = [] then [(0, 0)] else devCounts A sqrt g clouds i), ∃ r, fastDec share pct.toFloat t y = some r := by
    intro y hy
    cases hy' : fastDec share pct.toFloat t y with
    | none =>
      rw [foldSeen_none ⟨y, hy, hy'⟩] at hr
      cases hr
    | some r => exact ⟨r, rfl⟩
  rw [foldSeen_some hdec] at hr
  cases hr
  dsimp only at hr1
  rw [zero_add, gt_iff_lt, Nat.cast_pos, List.countP_pos_iff] at hr1
  obtain ⟨y, hy, hy'⟩ := hr1
  have hty := fastDec_filled (of_decide_eq_true hy')
  by_cases hnil : clouds = []
  · rw [if_pos hnil, List.mem_singleton] at hy
    subst hy
    dsimp only at hty
    omega
  · rw [if_neg hnil] at hy
    obtain ⟨c, hc, rfl⟩ := List.mem_map.1 hy
    exact ⟨c, hc, hty⟩

end

end VGT
