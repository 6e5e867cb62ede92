import Verif.Model.Backends

/-!
Specification vocabulary for the choice of the backend.
-/
set_option autoImplicit false

namespace VGT.Spec
open VGT.Backend

/-- The attempts before the chosen one all report `std::runtime_error`, and the chosen one has the given outcome. -/
def FirstDecisive {V : Type} (attempts : List (Attempt V)) (outcome : Attempt V) : Prop :=
  ∃ before after, attempts = before ++ outcome :: after ∧ ∀ a ∈ before, a = Attempt.runtimeError

/-- The value of an option: the given one, or the default. -/
def OptionIs (options : Options) (key : String) (default value : ℤ) : Prop :=
  options.lookup key = some value ∨ (options.lookup key = none ∧ value = default)

/-- CUDA device `k` can be used: CUDA was built, the device exists and answers. -/
def CudaUsable (m : Machine) (k : ℕ) : Prop :=
  ∃ rt count, m.cuda = some rt ∧ rt.count = some count ∧ k < count ∧ rt.setOk k = true ∧ rt.propertiesOk k = true

/-- OpenCL device `k` of platform `p` can be used: OpenCL was built, the device exists and both programs build. -/
def OpenCLUsable (m : Machine) (p k : ℕ) : Prop :=
  ∃ platforms devices device, m.opencl = some platforms ∧ platforms[p]? = some devices ∧ devices[k]? = some device ∧
    device.raycastBuilds = true ∧ device.filterBuilds = true

/-- The device a voxelizer runs on. -/
inductive Device where
  | cuda (k : ℤ)
  | opencl (p k : ℤ)
  | cpu
  deriving DecidableEq

def deviceOf : Voxelizer → Device
  | .cuda k _ => .cuda k
  | .opencl p k _ => .opencl p k
  | .cpu _ => .cpu

/-- Preference of a backend: CUDA before OpenCL before CPU. -/
def preference (option : BackendOption) : ℕ :=
  if option = CUDA then 0 else if option = OPENCL then 1 else 2

end VGT.Spec
