import Verif.Model.Voxelize

/-!
Addresses in the tracking buffer computed on the host and in the CUDA and OpenCL kernels.

All grids share one buffer of 32-bit counters; `k` is 0 for the seen-free and 1 for the seen-filled counter.
`int32 x` is `none` on signed overflow (undefined behaviour); `wrap32` is a narrowing conversion.  64-bit
computations on the host are exact (they cannot overflow for grids that fit into memory).
-/
set_option autoImplicit false

namespace VGT
open VGT.EDT

/-- Number of counters allocated (`PrepareTrackingGrids`, cuda_voxelization_helpers.cu:644-645,
opencl_voxelization_helpers.cc:595-596). -/
def trackingElements (numCells numGrids : ℤ) : ℤ := 2 * (numCells * numGrids)

/-- Starting offset of a grid (cuda_voxelization_helpers.cu:649-653, opencl_voxelization_helpers.cc:632-638). -/
def gridOffset (numCells grid : ℤ) : ℤ := grid * numCells * 2

/-- `data_index` in the raycasting kernels, with the strides the host computes (cuda_voxelization_helpers.cu:281-282,
313-314, 683-684; opencl_voxelization_helpers.cc:248-249, 282-283, 680-681). -/
def kernelDataIndex (d : Dims) (i : IVec) : Option ℤ :=
  (int32 (d.ny * d.nz)).bind fun stride1 =>
  (int32 (i 0 * stride1)).bind fun a =>
  (int32 (i 1 * d.nz)).bind fun b =>
  (int32 (a + b)).bind fun ab =>
  int32 (ab + i 2)

/-- Counter a CUDA raycasting thread increments (cuda_voxelization_helpers.cu:281-292, 313-316, 688-691): the buffer
pointer is advanced by the 64-bit offset. -/
def cudaRayIndex (d : Dims) (grid : ℤ) (i : IVec) (k : ℤ) : Option ℤ :=
  (kernelDataIndex d i).bind fun di =>
  (int32 (di * 2)).bind fun e =>
  (int32 (e + k)).map fun (f : ℤ) => gridOffset d.total grid + f

/-- Counter a CUDA filter thread reads (cuda_voxelization_helpers.cu:377-383): `num_cells * 2 * idx` is computed in
64 bits and stored in an `int32_t`. -/
def cudaFilterIndex (d : Dims) (grid v k : ℤ) : Option ℤ :=
  (int32 (v * 2)).bind fun v2 =>
  (int32 (wrap32 (d.total * 2 * grid) + v2)).bind fun t =>
  int32 (t + k)

/-- Counter an OpenCL raycasting work item increments (opencl_voxelization_helpers.cc:248-262, 282-287, 682-683). -/
def clRayIndex (d : Dims) (grid : ℤ) (i : IVec) (k : ℤ) : Option ℤ :=
  (kernelDataIndex d i).bind fun di =>
  (int32 (di * 2)).bind fun e =>
  (int32 (wrap32 (gridOffset d.total grid) + e)).bind fun t =>
  int32 (t + k)

/-- Counter an OpenCL filter work item reads (opencl_voxelization_helpers.cc:344-349, 744-745): everything is `int`. -/
def clFilterIndex (d : Dims) (grid v k : ℤ) : Option ℤ :=
  (int32 (wrap32 d.total * 2)).bind fun n2 =>
  (int32 (n2 * grid)).bind fun offset =>
  (int32 (v * 2)).bind fun v2 =>
  (int32 (offset + v2)).bind fun t =>
  int32 (t + k)

end VGT
