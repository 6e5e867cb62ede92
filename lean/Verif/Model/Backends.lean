import Mathlib.Data.List.Basic
import Mathlib.Data.List.Range
import Mathlib.Data.Int.Basic

/-!
Choice of the backend: `GetAvailableBackends`, `MakePointCloudVoxelizer`, `MakeBestAvailablePointCloudVoxelizer`, and the
constructors they call as far as they decide whether a voxelizer is made and which device it uses.

The machine is a value of `Machine`: which device code was built, and the answers of the CUDA and OpenCL runtimes.
Simplifications: names of devices and messages to the logging function are left out, and the logging function does not
throw; the answers of the runtimes do not change between calls; allocation does not fail; the vectors of platforms and
devices are shorter than 2^31, so that the casts of their sizes to `int32_t` are the sizes.  cl.hpp is used without
`__CL_ENABLE_EXCEPTIONS`, so no call of it throws.
-/
set_option autoImplicit false

namespace VGT.Backend

/-- `std::map<std::string, int32_t>`: device options.  A key occurs at most once in the maps the code builds; `List.lookup`
takes the first. -/
abbrev Options := List (String × ℤ)

/-- `RetrieveOptionOrDefault` (device_voxelization_interface.hpp:43-70). -/
def retrieve (options : Options) (key : String) (default : ℤ) : ℤ :=
  match options.lookup key with
  | some value => value
  | none => default

/-- `DegreeOfParallelism` as chosen by the constructors: a given number of threads, the number OpenMP gives, or none. -/
inductive Threads where
  | given (n : ℤ)
  | omp
  | serial
  deriving DecidableEq, Repr

/-- The choice of threads (cpu_pointcloud_voxelization.cpp:33-65 with `CPU_PARALLELIZE`, `CPU_NUM_THREADS`;
device_pointcloud_voxelization.cpp:30-62 with `DISPATCH_PARALLELIZE`, `DISPATCH_NUM_THREADS`). -/
def chooseThreads (options : Options) (parallelize numThreads : String) : Threads :=
  if 0 < retrieve options parallelize 1 ∧ 1 ≤ retrieve options numThreads (-1) then
    .given (retrieve options numThreads (-1))
  else if 0 < retrieve options parallelize 1 then .omp
  else .serial

/-- The CUDA runtime: the result of `cudaGetDeviceCount` (`none`: an error, which `CudaCheckErrors` turns into
`std::runtime_error`), and whether `cudaSetDevice` and `cudaGetDeviceProperties` succeed for each device. -/
structure CudaRuntime where
  count : Option ℕ
  setOk : ℕ → Bool
  propertiesOk : ℕ → Bool

/-- An OpenCL device: whether the two programs build for it. -/
structure ClDevice where
  raycastBuilds : Bool
  filterBuilds : Bool
  deriving DecidableEq, Repr

/-- The machine and the build.  `cuda = none`: built with dummy_cuda_voxelization_helpers.cc; `opencl = none`: built with
dummy_opencl_voxelization_helpers.cc; otherwise the list of platforms, each the list of its devices. -/
structure Machine where
  cuda : Option CudaRuntime
  opencl : Option (List (List ClDevice))

/-- A constructed voxelizer: the device it runs on, and the parallelism it uses on the host. -/
inductive Voxelizer where
  | cuda (device : ℤ) (dispatch : Threads)
  | opencl (platform device : ℤ) (dispatch : Threads)
  | cpu (threads : Threads)
  deriving DecidableEq, Repr

/-- What a constructor or factory does: make something, throw `std::runtime_error`, or throw another exception. -/
inductive Attempt (V : Type) where
  | made (v : V)
  | runtimeError
  | otherError
  deriving DecidableEq, Repr

/-- `cuda_device_num_` after the constructor of `CudaVoxelizationHelperInterface`
(cuda_voxelization_helpers.cu:562-639); −1: not available. -/
def cudaDeviceNum (rt : CudaRuntime) (options : Options) : ℤ :=
  let device := retrieve options "CUDA_DEVICE" 0
  match rt.count with
  | none => -1
  | some count =>
    if 0 ≤ device ∧ device < (count : ℤ) then
      if rt.setOk device.toNat then
        if rt.propertiesOk device.toNat then device else -1
      else -1
    else -1

/-- `CudaPointCloudVoxelizer` (device_pointcloud_voxelization.cpp; `EnforceAvailable`,
device_pointcloud_voxelization.hpp:35-47). -/
def constructCuda (m : Machine) (options : Options) : Attempt Voxelizer :=
  match m.cuda with
  | none => .runtimeError
  | some rt =>
    if 0 ≤ cudaDeviceNum rt options then
      .made (.cuda (cudaDeviceNum rt options) (chooseThreads options "DISPATCH_PARALLELIZE" "DISPATCH_NUM_THREADS"))
    else .runtimeError

/-- The OpenCL device that the constructor of `OpenCLVoxelizationHelperInterface` settles on, if it is available at the
end (opencl_voxelization_helpers.cc:457-592). -/
def openclDevice (platforms : List (List ClDevice)) (options : Options) : Option (ℤ × ℤ) :=
  let p := retrieve options "OPENCL_PLATFORM_INDEX" 0
  if 0 < platforms.length ∧ 0 ≤ p ∧ p < (platforms.length : ℤ) then
    match platforms[p.toNat]? with
    | none => none
    | some devices =>
      let k := retrieve options "OPENCL_DEVICE_INDEX" 0
      if 0 < devices.length ∧ 0 ≤ k ∧ k < (devices.length : ℤ) then
        match devices[k.toNat]? with
        | none => none
        | some device => if device.raycastBuilds && device.filterBuilds then some (p, k) else none
      else none
  else none

/-- `OpenCLPointCloudVoxelizer`. -/
def constructOpenCL (m : Machine) (options : Options) : Attempt Voxelizer :=
  match m.opencl with
  | none => .runtimeError
  | some platforms =>
    match openclDevice platforms options with
    | some (p, k) => .made (.opencl p k (chooseThreads options "DISPATCH_PARALLELIZE" "DISPATCH_NUM_THREADS"))
    | none => .runtimeError

/-- `CpuPointCloudVoxelizer` (cpu_pointcloud_voxelization.cpp:29-66). -/
def constructCpu (options : Options) : Attempt Voxelizer :=
  .made (.cpu (chooseThreads options "CPU_PARALLELIZE" "CPU_NUM_THREADS"))

/-- The three `try` blocks of `MakeBestAvailablePointCloudVoxelizer` (pointcloud_voxelization.cpp:92-143) for any three
constructors: only `std::runtime_error` is caught. -/
def tryInOrder {V : Type} (cuda opencl cpu : Attempt V) : Attempt V :=
  match cuda with
  | .made v => .made v
  | .otherError => .otherError
  | .runtimeError =>
    match opencl with
    | .made v => .made v
    | .otherError => .otherError
    | .runtimeError =>
      match cpu with
      | .made v => .made v
      | .otherError => .otherError
      | .runtimeError => .runtimeError

/-- `MakeBestAvailablePointCloudVoxelizer` (pointcloud_voxelization.cpp:92-143). -/
def makeBest (m : Machine) (options : Options) : Attempt Voxelizer :=
  tryInOrder (constructCuda m options) (constructOpenCL m options) (constructCpu options)

/-- `BackendOptions` (pointcloud_voxelization.hpp:18-21): an `enum class` over `uint8_t` holds any byte. -/
abbrev BackendOption := ℕ
/-- The enumerators. -/
def BEST_AVAILABLE : BackendOption := 0
def CPU : BackendOption := 1
def OPENCL : BackendOption := 2
def CUDA : BackendOption := 3

/-- `MakePointCloudVoxelizer` (pointcloud_voxelization.cpp:55-82; the overload for `AvailableBackend`, 84-89, passes the
two fields). -/
def make (m : Machine) (option : BackendOption) (options : Options) : Attempt Voxelizer :=
  if option = BEST_AVAILABLE then makeBest m options
  else if option = CPU then constructCpu options
  else if option = OPENCL then constructOpenCL m options
  else if option = CUDA then constructCuda m options
  else .otherError

/-- `cuda_helpers::GetAvailableDevices` (cuda_voxelization_helpers.cu:791-822): the first failing query ends the loop. -/
def cudaDevices (m : Machine) : List Options :=
  match m.cuda with
  | none => []
  | some rt =>
    match rt.count with
    | none => []
    | some count => ((List.range count).takeWhile rt.propertiesOk).map fun (k : ℕ) => [("CUDA_DEVICE", (k : ℤ))]

/-- `opencl_helpers::GetAvailableDevices` (opencl_voxelization_helpers.cc:816-854). -/
def openclDevices (m : Machine) : List Options :=
  match m.opencl with
  | none => []
  | some platforms =>
    (List.range platforms.length).flatMap fun (p : ℕ) =>
      (List.range (platforms.getD p []).length).map fun (k : ℕ) =>
        [("OPENCL_DEVICE_INDEX", (k : ℤ)), ("OPENCL_PLATFORM_INDEX", (p : ℤ))]

/-- `GetAvailableBackends` (pointcloud_voxelization.cpp:18-53), without names. -/
def availableBackends (m : Machine) : List (BackendOption × Options) :=
  (cudaDevices m).map (fun o => (CUDA, o)) ++ (openclDevices m).map (fun o => (OPENCL, o)) ++
    [(CPU, [("CPU_PARALLELIZE", 1)]), (CPU, [("CPU_PARALLELIZE", 0)])]

end VGT.Backend
