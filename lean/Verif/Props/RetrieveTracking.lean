import Verif.Props.DeviceVoxelize

/-!
C64: reading one camera's tracking grid back from a device.
-/
set_option autoImplicit false

namespace VGT
open VGT.EDT VGT.Spec VGT.Par

section
variable {F : Type} {A : Arith F} {sqrt : F → F} {g : RayGrid F} {api : DeviceApi}

/-- A helper whose raycasting kernel can address the counters of all clouds: OpenCL with fewer than 2^31 counters in all,
CUDA with at most 2^31 counters per camera; all points can be addressed. -/
def RayHelper (api : DeviceApi) (d : Dims) (clouds : List (DevCloud F)) : Prop :=
  Helper api clouds ∧ (d.total * 2 * numTrackingGrids clouds < 2 ^ 31 ∨ d.total * 2 ≤ 2 ^ 31 ∧ ∃ T : ℕ, api = cudaApi T)

theorem RayHelper.ray {d : Dims} {clouds : List (DevCloud F)} (h : RayHelper api d clouds) :
    RayOk api d (numTrackingGrids clouds) := by
  obtain ⟨hh, hN | ⟨hN, T, rfl⟩⟩ := h
  · exact (helper_api hh hN).ray
  · exact cudaApi_ray hN _

/-- How many rays of camera number `k` put the mark; none if there is no such camera. -/
noncomputable def cameraHits (A : Arith F) (sqrt : F → F) (g : RayGrid F) (clouds : List (DevCloud F)) (k : ℕ) (m : Mark) : ℕ :=
  match clouds[k]? with
  | some c => devHits A sqrt g c m
  | none => 0

theorem retrieve_eq {cells grids k : ℕ} (hk : k < grids) (mem : ℤ → ℤ) :
    retrieveTrackingGrid cells grids mem k =
      some ((List.range (cells * 2)).map fun (n : ℕ) => mem ((k * (cells * 2) + n : ℕ))) := by
  unfold retrieveTrackingGrid trackingOffsets
  rw [List.getElem?_map, List.getElem?_range hk, Option.map_some, Option.bind_some]
  dsimp only
  have h1 : (k + 1) * cells ≤ grids * cells := Nat.mul_le_mul_right _ hk
  have h2 : gridOffset cells k * 4 + (cells * (4 * 2) : ℕ) ≤ 4 * trackingElements cells grids := by
    unfold gridOffset trackingElements
    have h3 : (k + 1) * cells * 8 ≤ grids * cells * 8 := Nat.mul_le_mul_right _ h1
    have h4 : k * cells * 2 * 4 + cells * (4 * 2) ≤ 4 * (2 * (cells * grids)) := by
      calc k * cells * 2 * 4 + cells * (4 * 2) = (k + 1) * cells * 8 := by ring
        _ ≤ grids * cells * 8 := h3
        _ = _ := by ring
    exact_mod_cast h4
  rw [if_pos h2, show cells * (4 * 2) / 4 = cells * 2 by omega]
  congr 1
  apply List.map_congr_left
  intro n _
  congr 1
  unfold gridOffset
  push_cast
  ring

/-- C64: after the raycasting kernels of all cameras, interleaved in any way, `RetrieveTrackingGrid` for camera `k` gives
two numbers per cell, at twice the cell's place in the grid's memory: the number of that camera's rays that pass through
the cell and the number that end in it.  No other camera's rays are in them.  With CUDA this holds also for buffers so
large that the filter kernel misses them. -/
theorem C64_retrieved_counts {clouds : List (DevCloud F)} (hh : RayHelper api g.dims clouds) {mem : ℤ → ℤ}
    (h : CountersRun (deviceThreads api A sqrt g (trackingElements g.dims.total (numTrackingGrids clouds)) clouds) mem)
    {k : ℕ} (hk : k < numTrackingGrids clouds) :
    ∃ vals, retrieveTrackingGrid g.dims.total (numTrackingGrids clouds) mem k = some vals ∧
      vals.length = 2 * (g.dims.nx * g.dims.ny * g.dims.nz) ∧
      ∀ x y z : ℕ, x < g.dims.nx → y < g.dims.ny → z < g.dims.nz →
        vals[2 * (x * (g.dims.ny * g.dims.nz) + y * g.dims.nz + z)]? =
          some (cameraHits A sqrt g clouds k (.free ![x, y, z]) : ℤ) ∧
        vals[2 * (x * (g.dims.ny * g.dims.nz) + y * g.dims.nz + z) + 1]? =
          some (cameraHits A sqrt g clouds k (.filled ![x, y, z]) : ℤ) := by
  obtain ⟨-, rfl⟩ := countersRun_iff.1 h
  refine ⟨_, retrieve_eq hk _, ?_, ?_⟩
  · rw [List.length_map, List.length_range]
    show g.dims.nx * g.dims.ny * g.dims.nz * 2 = _
    ring
  intro x y z hx hy hz
  have hi : CellInGrid (axisCells g.dims) ![(x : ℤ), y, z] := by
    intro a
    fin_cases a
    · exact ⟨Int.natCast_nonneg x, Int.ofNat_lt.2 hx⟩
    · exact ⟨Int.natCast_nonneg y, Int.ofNat_lt.2 hy⟩
    · exact ⟨Int.natCast_nonneg z, Int.ofNat_lt.2 hz⟩
  have hv := dataIndex_lt hi
  have he : x * (g.dims.ny * g.dims.nz) + y * g.dims.nz + z = dataIndex g.dims ![(x : ℤ), y, z] := by
    show _ = (x * g.dims.ny + y) * g.dims.nz + z
    ring
  have hval : ∀ m : Mark, m.cell = ![(x : ℤ), y, z] →
      counterMem ((deviceThreads api A sqrt g (trackingElements g.dims.total (numTrackingGrids clouds)) clouds).flatMap
        fun t => t.getD []) (flatAddr g.dims k m) = cameraHits A sqrt g clouds k m := by
    intro m hm
    have hmi : CellInGrid (axisCells g.dims) m.cell := by rw [hm]; exact hi
    unfold deviceThreads
    rw [(deviceThreads_spec (A := A) (sqrt := sqrt) hh.ray (s := 0) (by rw [Nat.zero_add]; exact le_max_left _ _)
      (helper_launch hh.1)).2, counter_value hk hmi]
    unfold cameraHits
    rcases hc : clouds[k]? with _ | c
    · simp [wrap32]
    · rw [Option.map_some, Option.getD_some]
      obtain ⟨e1, e2, e3⟩ := devMarks_count (A := A) (sqrt := sqrt) (c := c) hmi
      have hlen := (helper_launch hh.1 c (List.mem_of_getElem? hc)).1
      cases m with
      | free i =>
        simp only [Mark.cell] at e1 e3
        rw [e1, wrap32_small (by positivity) (by omega)]
      | filled i =>
        simp only [Mark.cell] at e2 e3
        rw [e2, wrap32_small (by positivity) (by omega)]
  have hlt : ∀ {e : ℕ}, e < 2 → 2 * dataIndex g.dims ![(x : ℤ), y, z] + e < g.dims.total * 2 := fun he => by omega
  have haddr : ∀ e : ℕ, (k * (g.dims.total * 2) + (2 * dataIndex g.dims ![(x : ℤ), y, z] + e) : ℕ) =
      (k * g.dims.total + dataIndex g.dims ![(x : ℤ), y, z]) * 2 + e := fun e => by ring
  rw [he]
  constructor
  · rw [List.getElem?_map, List.getElem?_range (by have := hlt (e := 0) (by norm_num); omega), Option.map_some]
    rw [show 2 * dataIndex g.dims ![(x : ℤ), y, z] = 2 * dataIndex g.dims ![(x : ℤ), y, z] + 0 from rfl, haddr 0]
    exact congrArg some (hval (.free ![(x : ℤ), y, z]) rfl)
  · rw [List.getElem?_map, List.getElem?_range (hlt (by norm_num)), Option.map_some, haddr 1]
    exact congrArg some (hval (.filled ![(x : ℤ), y, z]) rfl)

/-- C64: asking for a camera that does not exist is an exception; without any camera there is one grid, and it is asked
for as number 0. -/
theorem C64_no_such_camera (cells : ℕ) (clouds : List (DevCloud F)) (mem : ℤ → ℤ) (k : ℕ) :
    (retrieveTrackingGrid cells (numTrackingGrids clouds) mem k).isSome ↔ k < clouds.length ∨ clouds = [] ∧ k = 0 := by
  have hk : k < clouds.length ∨ clouds = [] ∧ k = 0 ↔ k < numTrackingGrids clouds := by
    unfold numTrackingGrids
    rcases clouds with _ | ⟨c, cs⟩
    · simp
    · simp only [List.length_cons, reduceCtorEq, false_and, or_false]
      omega
  rw [hk]
  constructor
  · intro h
    by_contra hn
    unfold retrieveTrackingGrid trackingOffsets at h
    rw [List.getElem?_eq_none (by simpa using hn)] at h
    cases h
  · intro h
    rw [retrieve_eq h]
    rfl

end

/-- Two cameras of the concrete case of C57. -/
theorem line_rayHelper : RayHelper (F := Fl) (cudaApi 256) twoCells.dims [lineCamera.dev, lineCamera.dev] :=
  ⟨.inr ⟨256, by norm_num, rfl, by simp [lineCamera, Camera.dev]⟩, .inl (by decide)⟩

/-- Two cameras with a grid of 2^30 cells: the counters can be read back although the filter kernel cannot address them. -/
example : RayHelper (F := Fl) (cudaApi 256) ⟨1024, 1024, 1024⟩ [lineCamera.dev, lineCamera.dev] :=
  ⟨.inr ⟨256, by norm_num, rfl, by simp [lineCamera, Camera.dev]⟩, .inr ⟨by norm_num [Dims.total], 256, rfl⟩⟩

/-- What the second of two such cameras is told: one ray ends in the first cell. -/
example (sqrt : Fl → Fl) (h : sqrt (.fin (361 / 4)) = .fin (19 / 2)) (mem : ℤ → ℤ)
    (hm : CountersRun (deviceThreads (cudaApi 256) exactArith sqrt (exactGrid ⟨2, 1, 1⟩ 1)
      (trackingElements 2 2) [lineCamera.dev, lineCamera.dev]) mem) :
    retrieveTrackingGrid 2 2 mem 1 = some [0, 1, 1, 0] := by
  have hpt : kernelPoint exactArith sqrt (exactGrid ⟨2, 1, 1⟩ 1) lineCamera.dev
      (some fun a => .fin ((![-19 / 2, 0, 0] : Vec ℚ) a)) = some [.filled ![0, 0, 0], .free ![1, 0, 0]] := by
    have e : flLength exactArith sqrt (kernelOrigin lineCamera.dev.tf)
        (kernelTransform exactArith lineCamera.dev.tf fun a => .fin ((![-19 / 2, 0, 0] : Vec ℚ) a)) = .fin (19 / 2) := by
      rw [← h]
      unfold flLength
      dsimp only
      congr 1
      decide +kernel
    unfold kernelPoint
    dsimp only
    rw [e]
    decide +kernel
  have hmarks : devMarks exactArith sqrt (exactGrid ⟨2, 1, 1⟩ 1) lineCamera.dev =
      [.filled ![0, 0, 0], .free ![1, 0, 0]] := by
    unfold devMarks
    show ([_, _] : List _).flatMap _ = _
    simp only [List.flatMap_cons, List.flatMap_nil]
    have h2 : (kernelPoint exactArith sqrt (exactGrid ⟨2, 1, 1⟩ 1) lineCamera.dev
      (Option.map (fun x a => Fl.fin (x a)) (none : Option (Vec ℚ)))) = some [] := rfl
    have h1 : (kernelPoint exactArith sqrt (exactGrid ⟨2, 1, 1⟩ 1) lineCamera.dev
      (Option.map (fun x a => Fl.fin (x a)) (some (![-19 / 2, 0, 0] : Vec ℚ)))) = some [.filled ![0, 0, 0], .free ![1, 0, 0]] := hpt
    rw [h1, h2]
    rfl
  obtain ⟨vals, hv, hlen, hall⟩ := C64_retrieved_counts (g := exactGrid ⟨2, 1, 1⟩ 1) line_rayHelper hm (k := 1) (by decide)
  have hin : ∀ x : ℕ, x < 2 → CellInGrid (axisCells (⟨2, 1, 1⟩ : Dims)) ![(x : ℤ), 0, 0] := by
    intro x hx a
    fin_cases a
    · exact ⟨Int.natCast_nonneg x, Int.ofNat_lt.2 hx⟩
    · exact ⟨le_rfl, Int.one_pos⟩
    · exact ⟨le_rfl, Int.one_pos⟩
  have hits : ∀ x : ℕ, x < 2 → vals[2 * x]? = some (([.filled ![0, 0, 0], .free ![1, 0, 0]] : List Mark).count (.free ![(x : ℤ), 0, 0]) : ℤ) ∧
      vals[2 * x + 1]? = some (([.filled ![0, 0, 0], .free ![1, 0, 0]] : List Mark).count (.filled ![(x : ℤ), 0, 0]) : ℤ) := by
    intro x hx
    obtain ⟨h1, h2⟩ := hall x 0 0 hx (by decide) (by decide)
    obtain ⟨e1, e2, -⟩ := devMarks_count (A := exactArith) (sqrt := sqrt) (g := exactGrid ⟨2, 1, 1⟩ 1) (c := lineCamera.dev) (hin x hx)
    rw [hmarks] at e1 e2
    rw [e1, e2]
    have e : 2 * (x * ((exactGrid ⟨2, 1, 1⟩ 1).dims.ny * (exactGrid ⟨2, 1, 1⟩ 1).dims.nz) +
        0 * (exactGrid ⟨2, 1, 1⟩ 1).dims.nz + 0) = 2 * x := by
      show 2 * (x * 1 + 0 * 1 + 0) = 2 * x
      ring
    rw [e] at h1 h2
    exact ⟨h1, h2⟩
  show retrieveTrackingGrid 2 2 mem 1 = _
  have hv' : retrieveTrackingGrid 2 2 mem 1 = some vals := hv
  rw [hv']
  have hlen' : vals.length = 4 := hlen
  obtain ⟨a0, a1⟩ := hits 0 (by norm_num)
  obtain ⟨a2, a3⟩ := hits 1 (by norm_num)
  have b0 : vals[0]? = some 0 := a0.trans (by decide)
  have b1 : vals[1]? = some 1 := a1.trans (by decide)
  have b2 : vals[2]? = some 1 := a2.trans (by decide)
  have b3 : vals[3]? = some 0 := a3.trans (by decide)
  rcases vals with _ | ⟨v0, _ | ⟨v1, _ | ⟨v2, _ | ⟨v3, _ | ⟨v4, r⟩⟩⟩⟩⟩ <;> simp at hlen'
  simp at b0 b1 b2 b3
  rw [b0, b1, b2, b3]

end VGT
