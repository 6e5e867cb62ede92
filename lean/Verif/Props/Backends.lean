import Verif.Spec.Backends
import Mathlib.Tactic.SplitIfs
import Mathlib.Tactic.Push
import Mathlib.Tactic.ByContra
import Mathlib.Data.List.TakeWhile

/-!
C40: choice of the backend.
-/
set_option autoImplicit false

namespace VGT.Props
open VGT.Backend VGT.Spec

theorem retrieve_is {options : Options} {key : String} {default value : ℤ} (h : OptionIs options key default value) :
    retrieve options key default = value := by
  unfold retrieve
  rcases h with h | ⟨h, rfl⟩ <;> rw [h]

theorem optionIs_retrieve (options : Options) (key : String) (default : ℤ) :
    OptionIs options key default (retrieve options key default) := by
  unfold OptionIs retrieve
  cases options.lookup key <;> simp

/-- C40: for every pattern of outcomes of the three constructors the factory ends as the first one that does not report
`std::runtime_error` does, in the order CUDA, OpenCL, CPU; and if all report it, so does the factory. -/
theorem C40_first_decisive {V : Type} (cuda opencl cpu : Attempt V) :
    (∀ outcome, outcome ≠ Attempt.runtimeError →
      (tryInOrder cuda opencl cpu = outcome ↔ FirstDecisive [cuda, opencl, cpu] outcome)) ∧
    (tryInOrder cuda opencl cpu = Attempt.runtimeError ↔ ∀ a ∈ [cuda, opencl, cpu], a = Attempt.runtimeError) := by
  constructor
  · intro outcome hne
    constructor
    · intro h
      unfold tryInOrder at h
      cases cuda with
      | made v => exact ⟨[], _, by rw [← h]; rfl, by simp⟩
      | otherError => exact ⟨[], _, by rw [← h]; rfl, by simp⟩
      | runtimeError =>
        cases opencl with
        | made v => exact ⟨[.runtimeError], _, by rw [← h]; rfl, by simp⟩
        | otherError => exact ⟨[.runtimeError], _, by rw [← h]; rfl, by simp⟩
        | runtimeError =>
          cases cpu with
          | made v => exact ⟨[.runtimeError, .runtimeError], _, by rw [← h]; rfl, by simp⟩
          | otherError => exact ⟨[.runtimeError, .runtimeError], _, by rw [← h]; rfl, by simp⟩
          | runtimeError => exact absurd h.symm hne
    · rintro ⟨before, after, heq, hall⟩
      match before, heq, hall with
      | [], heq, _ =>
        simp only [List.nil_append, List.cons.injEq] at heq
        obtain ⟨rfl, -⟩ := heq
        cases cuda with
        | made v => rfl
        | otherError => rfl
        | runtimeError => exact absurd rfl hne
      | [a], heq, hall =>
        simp only [List.cons_append, List.nil_append, List.cons.injEq] at heq
        obtain ⟨rfl, rfl, -⟩ := heq
        have := hall cuda (by simp)
        subst this
        cases opencl with
        | made v => rfl
        | otherError => rfl
        | runtimeError => exact absurd rfl hne
      | [a, b], heq, hall =>
        simp only [List.cons_append, List.nil_append, List.cons.injEq] at heq
        obtain ⟨rfl, rfl, rfl, -⟩ := heq
        have h1 := hall cuda (by simp)
        have h2 := hall opencl (by simp)
        subst h1 h2
        cases cpu with
        | made v => rfl
        | otherError => rfl
        | runtimeError => exact absurd rfl hne
      | a :: b :: c :: rest, heq, _ =>
        have := congrArg List.length heq
        simp at this
  · cases cuda <;> cases opencl <;> cases cpu <;> simp [tryInOrder]

/-- C40: whatever the devices do, a voxelizer is made if the CPU backend constructs, as long as the device backends
report failure as `std::runtime_error`. -/
theorem C40_cpu_fallback {V : Type} (cuda opencl cpu : Attempt V) (hc : cuda ≠ .otherError) (ho : opencl ≠ .otherError)
    (hcpu : ∃ v, cpu = .made v) : ∃ v, tryInOrder cuda opencl cpu = .made v := by
  obtain ⟨v, rfl⟩ := hcpu
  cases cuda <;> cases opencl <;> simp_all [tryInOrder]

example : ∃ v, tryInOrder (.runtimeError) (.runtimeError) (.made 7) = .made v :=
  C40_cpu_fallback _ _ _ (by decide) (by decide) ⟨7, rfl⟩

/-- C40: an exception of another type from an earlier constructor is not caught: the proviso is needed. -/
theorem C40_other_exceptions_escape {V : Type} (v : V) :
    tryInOrder .otherError .runtimeError (.made v) = .otherError ∧
    tryInOrder .runtimeError .otherError (.made v) = .otherError := ⟨rfl, rfl⟩

theorem constructCuda_made_iff (m : Machine) (options : Options) (k : ℕ)
    (hk : OptionIs options "CUDA_DEVICE" 0 k) (v : Voxelizer) :
    constructCuda m options = .made v ↔ CudaUsable m k ∧
      v = .cuda k (chooseThreads options "DISPATCH_PARALLELIZE" "DISPATCH_NUM_THREADS") := by
  have hr : retrieve options "CUDA_DEVICE" 0 = (k : ℤ) := retrieve_is hk
  unfold constructCuda CudaUsable
  cases hm : m.cuda with
  | none => simp
  | some rt =>
    dsimp only
    unfold cudaDeviceNum
    cases hcount : rt.count with
    | none => simp [hcount]
    | some count =>
      simp only [hr, Int.toNat_natCast]
      by_cases h1 : (k : ℤ) < (count : ℤ)
      · have h1' : k < count := by omega
        cases hs : rt.setOk k <;> cases hp : rt.propertiesOk k <;> simp [hs, hp, hcount, h1', eq_comm (a := v)]
      · have h1' : ¬ k < count := by omega
        simp [hcount, h1', h1]

theorem constructCuda_cases (m : Machine) (options : Options) :
    constructCuda m options = .runtimeError ∨ ∃ k : ℕ, OptionIs options "CUDA_DEVICE" 0 k ∧ CudaUsable m k := by
  by_cases h0 : 0 ≤ retrieve options "CUDA_DEVICE" 0
  · obtain ⟨k, hk⟩ := Int.eq_ofNat_of_zero_le h0
    have hopt : OptionIs options "CUDA_DEVICE" 0 k := hk ▸ optionIs_retrieve _ _ _
    cases hc : constructCuda m options with
    | made v => exact .inr ⟨k, hopt, ((constructCuda_made_iff m options k hopt v).mp hc).1⟩
    | runtimeError => exact .inl rfl
    | otherError =>
      unfold constructCuda at hc
      split at hc
      · cases hc
      · split_ifs at hc
  · left
    unfold constructCuda cudaDeviceNum
    cases m.cuda with
    | none => rfl
    | some rt => cases hcount : rt.count <;> simp [hcount, h0]

theorem constructOpenCL_made_iff (m : Machine) (options : Options) (p k : ℕ)
    (hp : OptionIs options "OPENCL_PLATFORM_INDEX" 0 p) (hk : OptionIs options "OPENCL_DEVICE_INDEX" 0 k) (v : Voxelizer) :
    constructOpenCL m options = .made v ↔ OpenCLUsable m p k ∧
      v = .opencl p k (chooseThreads options "DISPATCH_PARALLELIZE" "DISPATCH_NUM_THREADS") := by
  have hrp : retrieve options "OPENCL_PLATFORM_INDEX" 0 = (p : ℤ) := retrieve_is hp
  have hrk : retrieve options "OPENCL_DEVICE_INDEX" 0 = (k : ℤ) := retrieve_is hk
  unfold constructOpenCL OpenCLUsable
  cases hm : m.opencl with
  | none => simp
  | some platforms =>
    dsimp only
    unfold openclDevice
    simp only [hrp, hrk, Int.toNat_natCast]
    by_cases h1 : p < platforms.length
    · have e1 : platforms[p]? = some platforms[p] := List.getElem?_eq_getElem h1
      have c1 : 0 < platforms.length ∧ (0 : ℤ) ≤ p ∧ (p : ℤ) < platforms.length := by omega
      rw [if_pos c1]
      simp only [e1]
      by_cases h2 : k < (platforms[p]).length
      · have e2 : (platforms[p])[k]? = some (platforms[p])[k] := List.getElem?_eq_getElem h2
        have c2 : 0 < (platforms[p]).length ∧ (0 : ℤ) ≤ k ∧ (k : ℤ) < (platforms[p]).length := by omega
        rw [if_pos c2]
        simp only [e2]
        cases hb : (platforms[p])[k].raycastBuilds <;> cases hf : (platforms[p])[k].filterBuilds <;>
          simp [e1, e2, hb, hf, eq_comm (a := v)]
      · have e2 : (platforms[p])[k]? = none := List.getElem?_eq_none (by omega)
        have c2 : ¬ (0 < (platforms[p]).length ∧ (0 : ℤ) ≤ k ∧ (k : ℤ) < (platforms[p]).length) := by omega
        rw [if_neg c2]
        simp [e1, e2]
    · have e1 : platforms[p]? = none := List.getElem?_eq_none (by omega)
      have c1 : ¬ (0 < platforms.length ∧ (0 : ℤ) ≤ p ∧ (p : ℤ) < platforms.length) := by omega
      rw [if_neg c1]
      simp [e1]

theorem constructOpenCL_cases (m : Machine) (options : Options) :
    constructOpenCL m options = .runtimeError ∨ ∃ p k : ℕ, OptionIs options "OPENCL_PLATFORM_INDEX" 0 p ∧
      OptionIs options "OPENCL_DEVICE_INDEX" 0 k ∧ OpenCLUsable m p k := by
  cases hc : constructOpenCL m options with
  | runtimeError => exact .inl rfl
  | otherError =>
    unfold constructOpenCL at hc
    split at hc
    · cases hc
    · split at hc <;> cases hc
  | made v =>
    right
    have h0 : 0 ≤ retrieve options "OPENCL_PLATFORM_INDEX" 0 := by
      by_contra h
      unfold constructOpenCL openclDevice at hc
      cases hm : m.opencl <;> simp [hm, h] at hc
    have h1 : 0 ≤ retrieve options "OPENCL_DEVICE_INDEX" 0 := by
      by_contra h
      unfold constructOpenCL openclDevice at hc
      cases hm : m.opencl with
      | none => simp [hm] at hc
      | some platforms =>
        simp only [hm, h, false_and, and_false, if_false] at hc
        split_ifs at hc
        · cases hg : platforms[(retrieve options "OPENCL_PLATFORM_INDEX" 0).toNat]? <;> simp [hg] at hc
    obtain ⟨p, hp⟩ := Int.eq_ofNat_of_zero_le h0
    obtain ⟨k, hk⟩ := Int.eq_ofNat_of_zero_le h1
    have op : OptionIs options "OPENCL_PLATFORM_INDEX" 0 p := hp ▸ optionIs_retrieve _ _ _
    have ok : OptionIs options "OPENCL_DEVICE_INDEX" 0 k := hk ▸ optionIs_retrieve _ _ _
    exact ⟨p, k, op, ok, ((constructOpenCL_made_iff m options p k op ok v).mp hc).1⟩

theorem constructOpenCL_device (m : Machine) (options : Options) (v : Voxelizer) (h : constructOpenCL m options = .made v) :
    ∃ p k : ℕ, OptionIs options "OPENCL_PLATFORM_INDEX" 0 p ∧ OptionIs options "OPENCL_DEVICE_INDEX" 0 k ∧
      OpenCLUsable m p k ∧ deviceOf v = .opencl p k := by
  rcases constructOpenCL_cases m options with h' | ⟨p, k, hp, hk, hu⟩
  · rw [h'] at h; cases h
  · exact ⟨p, k, hp, hk, hu, by rw [((constructOpenCL_made_iff m options p k hp hk v).mp h).2]; rfl⟩

/-- C40 on the actual constructors, for every machine, build and option map: a voxelizer is always made.  It runs on the
CUDA device that the options name (0 if they name none) if that device can be used; otherwise on the OpenCL device that
the options name if that can be used; otherwise on the CPU. -/
theorem C40_best_available (m : Machine) (options : Options) :
    ∃ v, makeBest m options = .made v ∧
      (∀ k : ℕ, OptionIs options "CUDA_DEVICE" 0 k → CudaUsable m k → deviceOf v = .cuda k) ∧
      ((¬ ∃ k : ℕ, OptionIs options "CUDA_DEVICE" 0 k ∧ CudaUsable m k) →
        (∀ p k : ℕ, OptionIs options "OPENCL_PLATFORM_INDEX" 0 p → OptionIs options "OPENCL_DEVICE_INDEX" 0 k →
          OpenCLUsable m p k → deviceOf v = .opencl p k) ∧
        ((¬ ∃ p k : ℕ, OptionIs options "OPENCL_PLATFORM_INDEX" 0 p ∧ OptionIs options "OPENCL_DEVICE_INDEX" 0 k ∧
          OpenCLUsable m p k) → deviceOf v = .cpu)) := by
  have uniq : ∀ {key : String} {a b : ℕ}, OptionIs options key 0 a → OptionIs options key 0 b → a = b := by
    intro key a b ha hb
    have := (retrieve_is ha).symm.trans (retrieve_is hb)
    omega
  unfold makeBest
  rcases constructCuda_cases m options with hc | ⟨k, hk, hu⟩
  · have nocuda : ∀ k : ℕ, OptionIs options "CUDA_DEVICE" 0 k → ¬ CudaUsable m k := by
      intro k hk hu
      have := (constructCuda_made_iff m options k hk _).mpr ⟨hu, rfl⟩
      rw [hc] at this; cases this
    rw [hc]
    rcases constructOpenCL_cases m options with ho | ⟨p, k, hp, hk, hu⟩
    · have nocl : ∀ p k : ℕ, OptionIs options "OPENCL_PLATFORM_INDEX" 0 p → OptionIs options "OPENCL_DEVICE_INDEX" 0 k →
          ¬ OpenCLUsable m p k := by
        intro p k hp hk hu
        have := (constructOpenCL_made_iff m options p k hp hk _).mpr ⟨hu, rfl⟩
        rw [ho] at this; cases this
      rw [ho]
      exact ⟨_, rfl, fun k hk hu => absurd hu (nocuda k hk),
        fun _ => ⟨fun p k hp hk hu => absurd hu (nocl p k hp hk), fun _ => rfl⟩⟩
    · rw [(constructOpenCL_made_iff m options p k hp hk _).mpr ⟨hu, rfl⟩]
      refine ⟨_, rfl, fun k hk hu => absurd hu (nocuda k hk), fun _ => ⟨?_, ?_⟩⟩
      · intro p' k' hp' hk' _
        rw [uniq hp hp', uniq hk hk']; rfl
      · intro hno
        exact absurd ⟨p, k, hp, hk, hu⟩ hno
  · rw [(constructCuda_made_iff m options k hk _).mpr ⟨hu, rfl⟩]
    refine ⟨_, rfl, ?_, fun hno => absurd ⟨k, hk, hu⟩ hno⟩
    intro k' hk' _
    rw [uniq hk hk']; rfl

/-- A machine without CUDA devices and with two OpenCL platforms, the second with a device for which the programs build. -/
def laptop : Machine :=
  { cuda := some { count := some 0, setOk := fun _ => true, propertiesOk := fun _ => true }
    opencl := some [[⟨true, false⟩], [⟨false, false⟩, ⟨true, true⟩]] }

example : makeBest laptop [] = .made (.cpu .omp) := by decide
example : makeBest laptop [("OPENCL_DEVICE_INDEX", 1), ("OPENCL_PLATFORM_INDEX", 1)] = .made (.opencl 1 1 .omp) := by decide
example : makeBest laptop [("CPU_NUM_THREADS", 3), ("CUDA_DEVICE", 4)] = .made (.cpu (.given 3)) := by decide

/-- The factory tries one CUDA device, not all: with a broken device 0 and a working device 1 it does not use CUDA. -/
theorem C40_other_cuda_devices_not_tried :
    ∃ m : Machine, CudaUsable m 1 ∧ ∀ v, makeBest m [] = .made v → deviceOf v = .cpu := by
  refine ⟨{ cuda := some { count := some 2, setOk := fun k => k == 1, propertiesOk := fun _ => true }, opencl := none },
    ⟨_, 2, rfl, rfl, by omega, rfl, rfl⟩, ?_⟩
  intro v hv
  have : makeBest { cuda := some { count := some 2, setOk := fun k => k == 1, propertiesOk := fun _ => true },
                    opencl := none } [] = .made (.cpu .omp) := by decide
  rw [this] at hv
  cases hv
  rfl

/-- Asking for a backend makes that backend or throws, never another one; values outside the enumeration throw. -/
theorem C40_requested_backend (m : Machine) (option : BackendOption) (options : Options) (v : Voxelizer)
    (h : make m option options = .made v) :
    (option = CUDA → ∃ k, deviceOf v = .cuda k) ∧ (option = OPENCL → ∃ p k, deviceOf v = .opencl p k) ∧
      (option = CPU → deviceOf v = .cpu) ∧ option ≤ 3 := by
  refine ⟨?_, ?_, ?_, ?_⟩
  · rintro rfl
    have h' : constructCuda m options = .made v := h
    rcases constructCuda_cases m options with hc | ⟨k, hk, hu⟩
    · rw [hc] at h'; cases h'
    · exact ⟨k, by rw [((constructCuda_made_iff m options k hk v).mp h').2]; rfl⟩
  · rintro rfl
    have h' : constructOpenCL m options = .made v := h
    obtain ⟨p, k, -, -, -, hv⟩ := constructOpenCL_device m options v h'
    exact ⟨p, k, hv⟩
  · rintro rfl
    have h' : constructCpu options = .made v := h
    unfold constructCpu at h'
    cases h'
    rfl
  · unfold make BEST_AVAILABLE CPU OPENCL CUDA at h
    split_ifs at h with h1 h2 h3 h4 <;> first | (subst h1; decide) | (subst h2; decide) | (subst h3; decide) | (subst h4; decide) | cases h

example : make laptop OPENCL [] = .runtimeError := by decide
example : make laptop 4 [] = .otherError := by decide

/-- The listed backends are in order of preference, and the list ends with the two CPU backends. -/
theorem C40_listed_in_order (m : Machine) :
    (availableBackends m).Pairwise (fun a b => preference a.1 ≤ preference b.1) ∧
    ∃ devices, availableBackends m = devices ++ [(CPU, [("CPU_PARALLELIZE", 1)]), (CPU, [("CPU_PARALLELIZE", 0)])] ∧
      ∀ b ∈ devices, b.1 ≠ CPU := by
  constructor
  · unfold availableBackends
    rw [List.pairwise_append, List.pairwise_append]
    refine ⟨⟨?_, ?_, ?_⟩, by decide, ?_⟩
    · exact List.pairwise_map.mpr (List.pairwise_of_forall (fun _ _ => le_refl _))
    · exact List.pairwise_map.mpr (List.pairwise_of_forall (fun _ _ => le_refl _))
    · intro a ha b hb
      simp only [List.mem_map] at ha hb
      obtain ⟨_, _, rfl⟩ := ha
      obtain ⟨_, _, rfl⟩ := hb
      exact Nat.zero_le _
    · intro a ha b hb
      have hb2 : preference b.1 = 2 := by
        simp only [List.mem_cons, List.not_mem_nil, or_false] at hb
        rcases hb with rfl | rfl <;> rfl
      rw [hb2]
      unfold preference
      split_ifs <;> omega
  · refine ⟨_, rfl, ?_⟩
    intro b hb
    simp only [List.mem_append, List.mem_map] at hb
    rcases hb with ⟨_, _, rfl⟩ | ⟨_, _, rfl⟩ <;> simp [CUDA, OPENCL, CPU]

theorem mem_takeWhile_range {p : ℕ → Bool} {n k : ℕ} :
    k ∈ (List.range n).takeWhile p ↔ k < n ∧ ∀ j ≤ k, p j = true := by
  induction n with
  | zero => simp
  | succ n ih =>
    rw [List.range_succ]
    by_cases hall : ∀ x ∈ List.range n, p x = true
    · rw [List.takeWhile_append_of_pos hall]
      rw [List.mem_append, List.mem_range]
      constructor
      · rintro (h | h)
        · exact ⟨by omega, fun j hj => hall j (List.mem_range.mpr (by omega))⟩
        · by_cases hn : p n = true
          · simp [hn] at h
            subst h
            refine ⟨by omega, fun j hj => ?_⟩
            rcases Nat.lt_or_ge j k with hlt | hge
            · exact hall j (List.mem_range.mpr hlt)
            · rw [show j = k by omega]; exact hn
          · simp [hn] at h
      · rintro ⟨hk, hp⟩
        rcases Nat.lt_or_ge k n with hlt | hge
        · exact .inl hlt
        · right
          have : k = n := by omega
          subst this
          simp [hp k (le_refl k)]
    · have : (List.range n ++ [n]).takeWhile p = (List.range n).takeWhile p := by
        rw [List.takeWhile_append]
        rw [if_neg]
        intro hl
        apply hall
        have : (List.range n).takeWhile p = List.range n :=
          List.IsPrefix.eq_of_length (List.takeWhile_prefix p) (by simpa using hl)
        exact List.takeWhile_eq_self_iff.mp this
      rw [this, ih]
      push Not at hall
      obtain ⟨x, hx, hpx⟩ := hall
      rw [List.mem_range] at hx
      constructor
      · rintro ⟨h1, h2⟩
        exact ⟨by omega, h2⟩
      · rintro ⟨h1, h2⟩
        refine ⟨?_, h2⟩
        rcases Nat.lt_or_ge k n with hlt | hge
        · exact hlt
        · exact absurd (h2 x (by omega)) hpx

/-- Making the voxelizer of a listed CUDA backend gives a voxelizer on that device, if the device can be used. -/
theorem C40_listed_cuda (m : Machine) (options : Options) (h : (CUDA, options) ∈ availableBackends m) :
    ∃ k : ℕ, options = [("CUDA_DEVICE", (k : ℤ))] ∧
      ((∃ v, make m CUDA options = .made v ∧ deviceOf v = .cuda k) ↔ CudaUsable m k) := by
  unfold availableBackends at h
  simp only [List.mem_append, List.mem_map, Prod.mk.injEq, List.mem_cons, List.not_mem_nil, or_false] at h
  rcases h with (⟨o, ho, -, rfl⟩ | ⟨o, ho, h, -⟩) | ⟨h, -⟩ | ⟨h, -⟩
  · unfold cudaDevices at ho
    cases hm : m.cuda with
    | none => simp [hm] at ho
    | some rt =>
      cases hcount : rt.count with
      | none => simp [hm, hcount] at ho
      | some count =>
        simp only [hm, hcount, List.mem_map] at ho
        obtain ⟨k, -, rfl⟩ := ho
        refine ⟨k, rfl, ?_⟩
        have hopt : OptionIs [("CUDA_DEVICE", (k : ℤ))] "CUDA_DEVICE" 0 k := .inl rfl
        constructor
        · rintro ⟨v, hv, -⟩
          exact ((constructCuda_made_iff m _ k hopt v).mp hv).1
        · intro hu
          exact ⟨_, (constructCuda_made_iff m _ k hopt _).mpr ⟨hu, rfl⟩, rfl⟩
  all_goals (exfalso; revert h; decide)

/-- Likewise for OpenCL. -/
theorem C40_listed_opencl (m : Machine) (options : Options) (h : (OPENCL, options) ∈ availableBackends m) :
    ∃ p k : ℕ, options = [("OPENCL_DEVICE_INDEX", (k : ℤ)), ("OPENCL_PLATFORM_INDEX", (p : ℤ))] ∧
      ((∃ v, make m OPENCL options = .made v ∧ deviceOf v = .opencl p k) ↔ OpenCLUsable m p k) := by
  unfold availableBackends at h
  simp only [List.mem_append, List.mem_map, Prod.mk.injEq, List.mem_cons, List.not_mem_nil, or_false] at h
  rcases h with (⟨o, ho, h, -⟩ | ⟨o, ho, -, rfl⟩) | ⟨h, -⟩ | ⟨h, -⟩
  · exfalso; revert h; decide
  · unfold openclDevices at ho
    cases hm : m.opencl with
    | none => simp [hm] at ho
    | some platforms =>
      simp only [hm, List.mem_flatMap, List.mem_map] at ho
      obtain ⟨p, -, k, -, rfl⟩ := ho
      refine ⟨p, k, rfl, ?_⟩
      have hp : OptionIs [("OPENCL_DEVICE_INDEX", (k : ℤ)), ("OPENCL_PLATFORM_INDEX", (p : ℤ))] "OPENCL_PLATFORM_INDEX" 0 p :=
        .inl rfl
      have hk : OptionIs [("OPENCL_DEVICE_INDEX", (k : ℤ)), ("OPENCL_PLATFORM_INDEX", (p : ℤ))] "OPENCL_DEVICE_INDEX" 0 k :=
        .inl rfl
      constructor
      · rintro ⟨v, hv, -⟩
        exact ((constructOpenCL_made_iff m _ p k hp hk v).mp hv).1
      · intro hu
        exact ⟨_, (constructOpenCL_made_iff m _ p k hp hk _).mpr ⟨hu, rfl⟩, rfl⟩
  all_goals (exfalso; revert h; decide)

/-- Every OpenCL device that can be used is listed; every CUDA device that can be used is listed if the properties of the
devices before it can be read. -/
theorem C40_usable_devices_listed (m : Machine) :
    (∀ p k : ℕ, OpenCLUsable m p k →
      (OPENCL, [("OPENCL_DEVICE_INDEX", (k : ℤ)), ("OPENCL_PLATFORM_INDEX", (p : ℤ))]) ∈ availableBackends m) ∧
    (∀ k : ℕ, CudaUsable m k → (∀ rt, m.cuda = some rt → ∀ j < k, rt.propertiesOk j = true) →
      (CUDA, [("CUDA_DEVICE", (k : ℤ))]) ∈ availableBackends m) := by
  constructor
  · rintro p k ⟨platforms, devices, device, hm, hp, hk, -, -⟩
    unfold availableBackends
    simp only [List.mem_append, List.mem_map, Prod.mk.injEq, true_and]
    left; right
    refine ⟨_, ?_, rfl⟩
    unfold openclDevices
    simp only [hm, List.mem_flatMap, List.mem_map]
    have hpl := (List.getElem?_eq_some_iff.mp hp).1
    have hkl := (List.getElem?_eq_some_iff.mp hk).1
    refine ⟨p, List.mem_range.mpr hpl, k, List.mem_range.mpr ?_, rfl⟩
    rw [List.getD_eq_getElem?_getD, hp]
    exact hkl
  · rintro k ⟨rt, count, hm, hcount, hk, -, hpk⟩ hprev
    unfold availableBackends
    simp only [List.mem_append, List.mem_map, Prod.mk.injEq, true_and]
    left; left
    refine ⟨_, ?_, rfl⟩
    unfold cudaDevices
    simp only [hm, hcount, List.mem_map]
    refine ⟨k, mem_takeWhile_range.mpr ⟨hk, ?_⟩, rfl⟩
    intro j hj
    rcases Nat.lt_or_ge j k with hlt | hge
    · exact hprev rt hm j hlt
    · rw [show j = k by omega]; exact hpk

example : availableBackends laptop =
    [(OPENCL, [("OPENCL_DEVICE_INDEX", 0), ("OPENCL_PLATFORM_INDEX", 0)]),
     (OPENCL, [("OPENCL_DEVICE_INDEX", 0), ("OPENCL_PLATFORM_INDEX", 1)]),
     (OPENCL, [("OPENCL_DEVICE_INDEX", 1), ("OPENCL_PLATFORM_INDEX", 1)]),
     (CPU, [("CPU_PARALLELIZE", 1)]), (CPU, [("CPU_PARALLELIZE", 0)])] := by decide

/-- A device is hidden by an earlier one whose properties cannot be read. -/
theorem C40_usable_device_not_listed :
    ∃ m : Machine, CudaUsable m 1 ∧ (CUDA, [("CUDA_DEVICE", (1 : ℤ))]) ∉ availableBackends m := by
  refine ⟨{ cuda := some { count := some 2, setOk := fun _ => true, propertiesOk := fun k => k == 1 }, opencl := none },
    ⟨_, 2, rfl, rfl, by omega, rfl, rfl⟩, by decide⟩

/-- A number of threads that is passed on is positive, so that the constructor of `DegreeOfParallelism` accepts it. -/
theorem C40_threads_positive (options : Options) (a b : String) (n : ℤ) (h : chooseThreads options a b = .given n) :
    1 ≤ n ∧ OptionIs options b (-1) n := by
  unfold chooseThreads at h
  split_ifs at h with h1
  cases h
  exact ⟨h1.2, optionIs_retrieve _ _ _⟩

example : chooseThreads [("CPU_NUM_THREADS", 8)] "CPU_PARALLELIZE" "CPU_NUM_THREADS" = .given 8 := by decide

end VGT.Props
