import Verif.Model.DeviceIndex
import Verif.Lemmas.Voxelize2

/-!
C47: addresses in the device tracking buffer.
-/
set_option autoImplicit false

namespace VGT
open VGT.EDT VGT.Spec

theorem int32_some {x : ℤ} (h0 : 0 ≤ x) (h1 : x < 2 ^ 31) : int32 x = some x := by
  unfold int32
  rw [if_pos]
  omega

theorem kernelDataIndex_eq {d : Dims} (hN : d.total < 2 ^ 31) {i : IVec} (hi : CellInGrid (axisCells d) i) :
    kernelDataIndex d i = some (dataIndex d i : ℤ) := by
  have hlt := dataIndex_lt hi
  obtain ⟨⟨a0, a1⟩, ⟨b0, b1⟩, c0, c1⟩ := cellInGrid_iff.1 hi
  unfold dataIndex at hlt ⊢
  unfold kernelDataIndex
  have hx : i 0 = ((i 0).toNat : ℤ) := by omega
  have hy : i 1 = ((i 1).toNat : ℤ) := by omega
  have hz : i 2 = ((i 2).toNat : ℤ) := by omega
  have hx1 : (i 0).toNat < d.nx := by omega
  rw [hx, hy, hz]
  simp only [Int.toNat_natCast]
  clear hx hy hz a0 a1 b0 b1 c0 c1 hi
  generalize (i 0).toNat = x at *
  generalize (i 1).toNat = y at *
  generalize (i 2).toNat = z at *
  have hs : d.ny * d.nz ≤ d.total := by
    unfold Dims.total
    rw [Nat.mul_assoc]
    exact Nat.le_mul_of_pos_left _ (by omega)
  have e1 : (x * d.ny + y) * d.nz = x * (d.ny * d.nz) + y * d.nz := by ring
  have hle : x * (d.ny * d.nz) + y * d.nz + z < d.total := by rw [← e1]; exact hlt
  have g1 : int32 ((d.ny : ℤ) * d.nz) = some ((d.ny : ℤ) * d.nz) :=
    int32_some (by positivity) (by exact_mod_cast lt_of_le_of_lt hs hN)
  have g2 : int32 ((x : ℤ) * ((d.ny : ℤ) * d.nz)) = some ((x : ℤ) * ((d.ny : ℤ) * d.nz)) :=
    int32_some (by positivity) (by
      have : x * (d.ny * d.nz) < 2 ^ 31 := by omega
      exact_mod_cast this)
  have g3 : int32 ((y : ℤ) * d.nz) = some ((y : ℤ) * d.nz) :=
    int32_some (by positivity) (by
      have : y * d.nz < 2 ^ 31 := by omega
      exact_mod_cast this)
  have g4 : int32 ((x : ℤ) * ((d.ny : ℤ) * d.nz) + (y : ℤ) * d.nz) = some ((x : ℤ) * ((d.ny : ℤ) * d.nz) + (y : ℤ) * d.nz) :=
    int32_some (by positivity) (by
      have : x * (d.ny * d.nz) + y * d.nz < 2 ^ 31 := by omega
      exact_mod_cast this)
  have g5 : int32 ((x : ℤ) * ((d.ny : ℤ) * d.nz) + (y : ℤ) * d.nz + z) =
      some ((x : ℤ) * ((d.ny : ℤ) * d.nz) + (y : ℤ) * d.nz + z) :=
    int32_some (by positivity) (by
      have : x * (d.ny * d.nz) + y * d.nz + z < 2 ^ 31 := by omega
      exact_mod_cast this)
  rw [g1, Option.bind_some, g2, Option.bind_some, g3, Option.bind_some, g4, Option.bind_some, g5,
    Option.some.injEq]
  push_cast
  ring

/-- The intended address. -/
def flatIndex (d : Dims) (grid : ℕ) (i : IVec) (k : ℕ) : ℤ := ((grid * d.total + dataIndex d i) * 2 + k : ℕ)

/-- Intended addresses are in the buffer and distinct. -/
theorem flatIndex_spec {d : Dims} {numGrids grid k : ℕ} (hg : grid < numGrids) {i : IVec}
    (hi : CellInGrid (axisCells d) i) (hk : k < 2) :
    0 ≤ flatIndex d grid i k ∧ flatIndex d grid i k < trackingElements d.total numGrids ∧
    ∀ (grid' : ℕ) (i' : IVec) (k' : ℕ), CellInGrid (axisCells d) i' → k' < 2 →
      flatIndex d grid' i' k' = flatIndex d grid i k → grid' = grid ∧ i' = i ∧ k' = k := by
  have hlt := dataIndex_lt hi
  unfold flatIndex trackingElements
  refine ⟨by positivity, ?_, ?_⟩
  · have : (grid + 1) * d.total ≤ numGrids * d.total := Nat.mul_le_mul_right _ hg
    rw [Nat.add_mul] at this
    have h2 : (grid * d.total + dataIndex d i) * 2 + k < 2 * (d.total * numGrids) := by
      rw [Nat.mul_comm d.total]
      omega
    exact_mod_cast h2
  · intro grid' i' k' hi' hk' h
    have hlt' := dataIndex_lt hi'
    have h' : (grid' * d.total + dataIndex d i') * 2 + k' = (grid * d.total + dataIndex d i) * 2 + k := by exact_mod_cast h
    have e1 : k' = k := by omega
    have e2 : grid' * d.total + dataIndex d i' = grid * d.total + dataIndex d i := by omega
    have e3 : dataIndex d i' = dataIndex d i := by
      have := congrArg (· % d.total) e2
      simpa [Nat.mul_add_mod', Nat.mod_eq_of_lt hlt, Nat.mod_eq_of_lt hlt'] using this
    have e4 : grid' = grid := by
      rw [e3] at e2
      exact Nat.eq_of_mul_eq_mul_right (by omega : 0 < d.total) (by omega)
    exact ⟨e4, dataIndex_inj hi' hi e3, e1⟩

theorem cudaRayIndex_eq {d : Dims} (hN : d.total * 2 ≤ 2 ^ 31) {grid k : ℕ} {i : IVec}
    (hi : CellInGrid (axisCells d) i) (hk : k < 2) : cudaRayIndex d grid i k = some (flatIndex d grid i k) := by
  have hlt := dataIndex_lt hi
  unfold cudaRayIndex
  rw [kernelDataIndex_eq (by omega) hi, Option.bind_some, int32_some (by positivity) (by omega), Option.bind_some,
    int32_some (by positivity) (by omega), Option.map_some]
  unfold gridOffset flatIndex
  rw [Option.some.injEq]
  push_cast
  ring

/-- C47, CUDA raycasting: as long as one grid has at most 2^30 cells, every increment of the counter `k` of cell `i` for
camera `grid` hits the buffer, and different counters are different places, for any number of cameras. -/
theorem C47_cuda_raycast_addresses {d : Dims} (hN : d.total * 2 ≤ 2 ^ 31) {numGrids grid k : ℕ} (hg : grid < numGrids)
    {i : IVec} (hi : CellInGrid (axisCells d) i) (hk : k < 2) :
    ∃ a, cudaRayIndex d grid i k = some a ∧ 0 ≤ a ∧ a < trackingElements d.total numGrids ∧
      ∀ (grid' : ℕ) (i' : IVec) (k' : ℕ), CellInGrid (axisCells d) i' → k' < 2 →
        cudaRayIndex d grid' i' k' = some a → grid' = grid ∧ i' = i ∧ k' = k := by
  obtain ⟨h0, h1, h2⟩ := flatIndex_spec hg hi hk
  refine ⟨_, cudaRayIndex_eq hN hi hk, h0, h1, fun grid' i' k' hi' hk' h => h2 grid' i' k' hi' hk' ?_⟩
  rw [cudaRayIndex_eq hN hi' hk'] at h
  exact Option.some.inj h

theorem addr_chain {G D k : ℕ} (h : G + D * 2 + k < 2 ^ 31) : wrap32 (G : ℤ) = G ∧
    int32 ((D : ℤ) * 2) = some ((D : ℤ) * 2) ∧ int32 ((G : ℤ) + (D : ℤ) * 2) = some ((G : ℤ) + (D : ℤ) * 2) ∧
    int32 ((G : ℤ) + (D : ℤ) * 2 + k) = some ((G : ℤ) + (D : ℤ) * 2 + k) ∧ int32 (G : ℤ) = some (G : ℤ) := by
  refine ⟨wrap32_small ?_ ?_, int32_some ?_ ?_, int32_some ?_ ?_, int32_some ?_ ?_, int32_some ?_ ?_⟩ <;> omega

theorem total_chain {N : ℕ} (h : N * 2 < 2 ^ 31) : wrap32 (N : ℤ) = N ∧ int32 ((N : ℤ) * 2) = some ((N : ℤ) * 2) :=
  ⟨wrap32_small (by omega) (by omega), int32_some (by omega) (by omega)⟩

/-- C47: if the whole buffer has fewer than 2^31 counters, all four kernels agree on the address of every counter, it is
inside the buffer, and different (camera, cell, counter) have different addresses; in particular the filter reads exactly
what the raycasting wrote.  Missing: larger buffers (`C47_cuda_filter_out_of_bounds`, `C47_opencl_out_of_bounds`). -/
theorem C47_addresses_partial {d : Dims} {numGrids grid k : ℕ} (hN : d.total * 2 * numGrids < 2 ^ 31)
    (hg : grid < numGrids) {i : IVec} (hi : CellInGrid (axisCells d) i) (hk : k < 2) :
    ∃ a, cudaRayIndex d grid i k = some a ∧ cudaFilterIndex d grid (dataIndex d i) k = some a ∧
      clRayIndex d grid i k = some a ∧ clFilterIndex d grid (dataIndex d i) k = some a ∧
      0 ≤ a ∧ a < trackingElements d.total numGrids ∧
      ∀ (grid' : ℕ) (i' : IVec) (k' : ℕ), grid' < numGrids → CellInGrid (axisCells d) i' → k' < 2 →
        cudaRayIndex d grid' i' k' = some a → grid' = grid ∧ i' = i ∧ k' = k := by
  have hlt := dataIndex_lt hi
  have hmul : d.total * 2 * (grid + 1) ≤ d.total * 2 * numGrids := Nat.mul_le_mul_left _ hg
  rw [Nat.mul_add, Nat.mul_one, Nat.mul_comm (d.total * 2) grid] at hmul
  have hN1 : d.total * 2 < 2 ^ 31 := by omega
  have hoff : grid * (d.total * 2) + dataIndex d i * 2 + k < 2 ^ 31 := by omega
  obtain ⟨h0, h1, h2⟩ := flatIndex_spec hg hi hk
  have hflat : flatIndex d grid i k = ((grid * (d.total * 2) : ℕ) : ℤ) + (dataIndex d i : ℤ) * 2 + k := by
    unfold flatIndex
    push_cast
    ring
  obtain ⟨hw1, a1⟩ := total_chain hN1
  obtain ⟨hw, v2, t, tk, a2⟩ := addr_chain hoff
  refine ⟨flatIndex d grid i k, cudaRayIndex_eq (by omega) hi hk, ?_, ?_, ?_, h0, h1, ?_⟩
  · unfold cudaFilterIndex
    rw [v2, Option.bind_some, show (d.total : ℤ) * 2 * grid = ((grid * (d.total * 2) : ℕ) : ℤ) by push_cast; ring, hw, t,
      Option.bind_some, tk, hflat]
  · unfold clRayIndex gridOffset
    rw [kernelDataIndex_eq (by omega) hi, Option.bind_some, v2, Option.bind_some,
      show (grid : ℤ) * d.total * 2 = ((grid * (d.total * 2) : ℕ) : ℤ) by push_cast; ring, hw, t, Option.bind_some, tk, hflat]
  · unfold clFilterIndex
    rw [hw1, a1, Option.bind_some, show (d.total : ℤ) * 2 * grid = ((grid * (d.total * 2) : ℕ) : ℤ) by push_cast; ring, a2,
      Option.bind_some, v2, Option.bind_some, t, Option.bind_some, tk, hflat]
  · intro grid' i' k' _ hi' hk' h
    rw [cudaRayIndex_eq (by omega) hi' hk'] at h
    exact h2 grid' i' k' hi' hk' (Option.some.inj h)

example : cudaRayIndex ⟨2, 3, 4⟩ 1 ![1, 2, 3] 1 = some 95 ∧ cudaFilterIndex ⟨2, 3, 4⟩ 1 23 1 = some 95 ∧
    clRayIndex ⟨2, 3, 4⟩ 1 ![1, 2, 3] 1 = some 95 ∧ clFilterIndex ⟨2, 3, 4⟩ 1 23 1 = some 95 ∧
    trackingElements (Dims.total ⟨2, 3, 4⟩) 2 = 96 ∧ Dims.total ⟨2, 3, 4⟩ * 2 * 2 < 2 ^ 31 := by decide +kernel

/-- C47 is false for large buffers: with a grid of 1024 x 1024 x 512 cells and three cameras the CUDA raycasting kernel
writes the third camera's counters correctly, but the filter kernel reads them 2^31 counters before the buffer. -/
theorem C47_cuda_filter_out_of_bounds :
    cudaRayIndex ⟨1024, 1024, 512⟩ 2 ![0, 0, 0] 0 = some (2 ^ 31) ∧
    2 ^ 31 < trackingElements (Dims.total ⟨1024, 1024, 512⟩) 3 ∧
    cudaFilterIndex ⟨1024, 1024, 512⟩ 2 0 0 = some (-2 ^ 31) := by decide +kernel

/-- C47 is false for large buffers in OpenCL: the raycasting kernel addresses counters before the buffer, the filter
kernel's offset overflows. -/
theorem C47_opencl_out_of_bounds :
    clRayIndex ⟨1024, 1024, 512⟩ 2 ![0, 0, 0] 0 = some (-2 ^ 31) ∧
    clFilterIndex ⟨1024, 1024, 512⟩ 2 0 0 = none := by decide +kernel

end VGT
