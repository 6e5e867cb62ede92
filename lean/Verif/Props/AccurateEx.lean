import Verif.Props.AccurateAll
import Verif.Lemmas.Fused
import Verif.Props.FarEx

/-!
C85: the arithmetic of the CPU with fused operations and of devices with fast math, and concrete cases.
-/
set_option autoImplicit false

namespace VGT
open VGT.EDT VGT.Spec VGT.Par

/-- Rounding to `double`. -/
def doubleR : ℚ → Fl := fun q => saturate ((2 - 1 / 2 ^ 52) * 2 ^ 1023) (roundDouble q)

/-- Rounding to `float` with denormal numbers flushed to zero. -/
def flushR : ℚ → Fl := fun q => if |q| < 1 / 2 ^ 126 then .fin 0 else floatR q

/-- A division that is off by up to two units in the last place. -/
def roughDivR : ℚ → Fl := fun q => flushR (q * (1 + 1 / 2 ^ 24))

/-- A share that is off by up to two units in the last place. -/
def roughShare (a n : ℤ) : Fl := .fin (a / n + 1 / 2 ^ 23)

/-- `double` and `int64_t` with fused operations. -/
def fusedDouble : Arith Fused := fusedArith doubleR doubleR 64

/-- `float` and 32-bit `int` with fused operations, rough division and no denormal numbers. -/
def fastFloat : Arith Fused := fusedArith flushR roughDivR 32

theorem keepsSign_double : KeepsSign doubleR := by
  intro q y hq h
  unfold doubleR saturate at h
  split_ifs at h
  rw [← Fl.fin.inj h]
  exact rne_nonneg hq

theorem keepsSign_float : KeepsSign floatR := by
  intro q y hq h
  unfold floatR saturate at h
  split_ifs at h
  rw [← Fl.fin.inj h]
  exact rne_nonneg hq

theorem keepsSign_flush : KeepsSign flushR := by
  intro q y hq h
  unfold flushR at h
  split_ifs at h
  · rw [← Fl.fin.inj h]
  · exact keepsSign_float q y hq h

theorem rounds_flush : Rounds flushR (1 / 2 ^ 24) (1 / 2 ^ 126) (2 ^ 127) := by
  intro x
  unfold flushR
  split_ifs with h
  · left
    refine ⟨0, rfl, ?_⟩
    rw [zero_sub, abs_neg]
    have := abs_nonneg x
    linarith
  · rcases rounds_float x with ⟨y, h1, h2⟩ | ⟨h1, h2⟩ | ⟨h1, h2⟩
    · exact .inl ⟨y, h1, h2.trans (by norm_num)⟩
    · exact .inr (.inl ⟨h1, lt_of_le_of_lt (by norm_num) h2⟩)
    · exact .inr (.inr ⟨h1, lt_of_lt_of_le h2 (by norm_num)⟩)

theorem rounds_roughDiv : Rounds roughDivR (3 * (1 / 2 ^ 24)) (3 * (1 / 2 ^ 126)) (2 ^ 126) := by
  intro x
  unfold roughDivR
  have hx := abs_nonneg x
  have e : |x * (1 + 1 / 2 ^ 24)| = |x| * (1 + 1 / 2 ^ 24) := by rw [abs_mul, abs_of_pos (by norm_num : (0 : ℚ) < 1 + 1 / 2 ^ 24)]
  rcases rounds_flush (x * (1 + 1 / 2 ^ 24)) with ⟨y, h1, h2⟩ | ⟨h1, h2⟩ | ⟨h1, h2⟩
  · refine .inl ⟨y, h1, ?_⟩
    rw [e] at h2
    have h3 : |y - x| ≤ |y - x * (1 + 1 / 2 ^ 24)| + 1 / 2 ^ 24 * |x| := by
      have := abs_add_le (y - x * (1 + 1 / 2 ^ 24)) (x * (1 / 2 ^ 24))
      rw [show y - x * (1 + 1 / 2 ^ 24) + x * (1 / 2 ^ 24) = y - x by ring, abs_mul, abs_of_pos (by norm_num : (0 : ℚ) < 1 / 2 ^ 24)] at this
      linarith
    linarith
  · refine .inr (.inl ⟨h1, ?_⟩)
    nlinarith
  · refine .inr (.inr ⟨h1, ?_⟩)
    nlinarith

theorem fairShare_rough : FairShare roughShare (2 ^ 22) := by
  intro a n _ _ _
  refine ⟨_, rfl, ?_⟩
  rw [add_sub_cancel_left, abs_of_pos (by norm_num)]
  norm_num

theorem fairShare_float : FairShare floatShare (2 ^ 24) := by
  intro a n ha han hn
  have hn' : n ≤ 2 ^ 24 := by exact_mod_cast hn
  have hex : ∀ m : ℤ, 0 ≤ m → m ≤ 2 ^ 24 → roundFloat (m : ℚ) = m := by
    intro m h0 h1
    have := rne_exact (K := ℚ) (p := 24) (emin := -149) m 0 (by norm_num) (by rw [abs_of_nonneg h0]; exact h1) (by norm_num)
    simpa [roundFloat] using this
  have hnq : (0 : ℚ) < n := by exact_mod_cast (by omega)
  have hq : (0 : ℚ) ≤ a / n := by
    have : (0 : ℚ) < a := by exact_mod_cast ha
    positivity
  have hq1 : (a : ℚ) / n < 1 := by
    rw [div_lt_one hnq]
    exact_mod_cast han
  refine ⟨roundFloat (a / n), ?_, ?_⟩
  · unfold floatShare
    rw [hex a ha.le (by omega), hex n (by omega) hn']
    unfold Fl.div
    simp [hnq.ne']
  · have herr := rne_error_any (K := ℚ) 24 (-149) ((a : ℚ) / n)
    have e1 : (2 : ℚ) ^ (-((24 : ℕ) : ℤ)) = 1 / 2 ^ 24 := by rw [zpow_neg, one_div]; norm_cast
    have e2 : (2 : ℚ) ^ ((-149 : ℤ) - 1) = 1 / 2 ^ 150 := by
      rw [show (-149 : ℤ) - 1 = -(150 : ℤ) by norm_num, zpow_neg, one_div]; norm_cast
    rw [e1, e2, abs_of_nonneg hq] at herr
    have h3 : (a : ℚ) / n ≤ 1 - 1 / 2 ^ 24 := by
      rw [div_le_iff₀ hnq]
      have h4 : (a : ℚ) + 1 ≤ n := by exact_mod_cast han
      have h5 : (n : ℚ) ≤ 2 ^ 24 := by exact_mod_cast hn'
      linarith
    unfold roundFloat
    push_cast
    linarith

/-- The CPU with fused operations: right up to `3 / 2^53`. -/
theorem fusedDouble_accurate {sqrt : Fl → Fl} (hs : IeeeSqrt sqrt) : AccurateArith fusedDouble (fusedSqrt sqrt) Prod.fst (Fused.kept doubleR)
    (3 * (1 / 2 ^ 53)) (3 * (1 / 2 ^ 1075)) (((2 - 1 / 2 ^ 52) * 2 ^ 1023) / 2) := by
  have h0 : (0 : ℚ) < 1 / 2 ^ 1075 := by positivity
  have h1 : (1 : ℚ) / 2 ^ 1075 ≤ 1 / 2 ^ 60 := one_div_le_one_div_of_le (by positivity) (pow_le_pow_right₀ (by norm_num) (by norm_num))
  have h2 : (2 : ℚ) ^ 60 ≤ 2 ^ 1023 := pow_le_pow_right₀ (by norm_num) (by norm_num)
  have hR := rounds_double
  refine fused_accurate (η := 1 / 2 ^ 1075) (M := (2 - 1 / 2 ^ 52) * 2 ^ 1023) hR keepsSign_double (fun x => ?_) (fun q hq => ?_) 64 (by norm_num) (by norm_num) h0.le
    (h1.trans (by norm_num)) ?_
  · have hx := abs_nonneg x
    rcases hR x with ⟨y, k1, k2⟩ | h | h
    · refine .inl ⟨y, k1, k2.trans ?_⟩
      generalize (1 : ℚ) / 2 ^ 1075 = η at *
      linarith
    · exact .inr (.inl h)
    · exact .inr (.inr h)
  · obtain ⟨y, k1, k2, k3⟩ := sqrtRounds_ieee hs q hq
    refine ⟨y, k1, k2, k3.trans ?_⟩
    generalize (1 : ℚ) / 2 ^ 1075 = η at *
    linarith
  · generalize (2 : ℚ) ^ 1023 = m at *
    linarith

/-- Devices with fast math: right up to `3 / 2^24`, as long as the root is. -/
theorem fastFloat_accurate {sqrt : Fl → Fl} (hs : SqrtRounds sqrt (3 * (1 / 2 ^ 24)) (3 * (1 / 2 ^ 126))) :
    AccurateArith fastFloat (fusedSqrt sqrt) Prod.fst (Fused.kept flushR) (3 * (1 / 2 ^ 24)) (3 * (1 / 2 ^ 126)) (2 ^ 126 / 2) := by
  refine fused_accurate (fun x => ?_) keepsSign_flush rounds_roughDiv hs 32 (by norm_num) (by norm_num) (by norm_num) (by norm_num) (by norm_num)
  rcases rounds_flush x with h | ⟨h1, h2⟩ | ⟨h1, h2⟩
  · exact .inl h
  · exact .inr (.inl ⟨h1, lt_of_le_of_lt (by norm_num) h2⟩)
  · exact .inr (.inr ⟨h1, lt_of_lt_of_le h2 (by norm_num)⟩)

theorem room_double {e B : ℚ} (h0 : 1 / 2 ^ 100 ≤ e) (h1 : e ≤ B) (h2 : B ≤ 2 ^ 100) :
    Room (3 * (1 / 2 ^ 53)) (3 * (1 / 2 ^ 1075)) (((2 - 1 / 2 ^ 52) * 2 ^ 1023) / 2) e B := by
  have he : 0 < e := lt_of_lt_of_le (by positivity) h0
  have hB : 0 < B := lt_of_lt_of_le he h1
  have hη : (1 : ℚ) / 2 ^ 1075 ≤ 1 / (2 ^ 200 * 2 ^ 200) :=
    one_div_le_one_div_of_le (by positivity) (by rw [← pow_add]; exact pow_le_pow_right₀ (by norm_num) (by norm_num))
  have hη0 : (0 : ℚ) < 1 / 2 ^ 1075 := by positivity
  have hM : (2 : ℚ) ^ 200 * 2 ^ 200 ≤ 2 ^ 1023 := by
    rw [← pow_add]
    exact pow_le_pow_right₀ (by norm_num) (by norm_num)
  have hB0 : 1 / 2 ^ 100 ≤ B := h0.trans h1
  have hBB : (1 / 2 ^ 100) ^ 2 ≤ B ^ 2 := pow_le_pow_left₀ (by positivity) hB0 2
  have hBB' : B ^ 2 ≤ (2 ^ 100) ^ 2 := pow_le_pow_left₀ hB.le h2 2
  have hie : 1 / e ≤ 2 ^ 100 := by
    rw [div_le_iff₀ he]
    calc (1 : ℚ) = 2 ^ 100 * (1 / 2 ^ 100) := by norm_num
      _ ≤ _ := by gcongr
  have hBe : B / e ≤ 2 ^ 100 * 2 ^ 100 := by
    rw [div_eq_mul_one_div]
    exact mul_le_mul h2 hie (by positivity) (by positivity)
  have h2e : 2 / e = 2 * (1 / e) := by ring
  generalize (1 : ℚ) / 2 ^ 1075 = η at *
  generalize (2 : ℚ) ^ 1023 = m at *
  norm_num at h0 h2 hη hM hB0 hBB hBB' hie hBe
  refine ⟨by norm_num, by norm_num, by linarith, he, h1, by linarith, by linarith, ?_, by linarith, by linarith, by linarith, by linarith,
    by linarith, by rw [h2e, one_div]; linarith⟩
  rw [mul_pow]
  norm_num
  linarith

theorem room_float {e B : ℚ} (h0 : 1 / 2 ^ 20 ≤ e) (h1 : e ≤ B) (h2 : B ≤ 2 ^ 30) :
    Room (3 * (1 / 2 ^ 24)) (3 * (1 / 2 ^ 126)) (2 ^ 126 / 2) e B := by
  have he : 0 < e := lt_of_lt_of_le (by positivity) h0
  have hB : 0 < B := lt_of_lt_of_le he h1
  have hB0 : 1 / 2 ^ 20 ≤ B := h0.trans h1
  have hBB : (1 / 2 ^ 20) ^ 2 ≤ B ^ 2 := pow_le_pow_left₀ (by positivity) hB0 2
  have hBB' : B ^ 2 ≤ (2 ^ 30) ^ 2 := pow_le_pow_left₀ hB.le h2 2
  have hie : 1 / e ≤ 2 ^ 20 := by
    rw [div_le_iff₀ he]
    calc (1 : ℚ) = 2 ^ 20 * (1 / 2 ^ 20) := by norm_num
      _ ≤ _ := by gcongr
  have hBe : B / e ≤ 2 ^ 30 * 2 ^ 20 := by
    rw [div_eq_mul_one_div]
    exact mul_le_mul h2 hie (by positivity) (by positivity)
  have h2e : 2 / e = 2 * (1 / e) := by ring
  norm_num at h0 h2 hB0 hBB hBB' hie hBe
  refine ⟨by norm_num, by norm_num, by norm_num, he, h1, by norm_num, by norm_num; linarith, ?_, by norm_num, by norm_num, by norm_num; linarith,
    by norm_num; linarith, by norm_num; linarith, by rw [h2e]; norm_num; linarith⟩
  rw [mul_pow]
  norm_num
  linarith

/-! ### Concrete cases -/

/-- A camera before the grid that measures a point in cell (2, 1, 0) from a thousand cells away. -/
def farF : Camera3 := lookFrom ![-1999 / 2, 3 / 2, 1 / 2] (.fin 1010) [some ![1002, 0, 0]]

theorem farF_within : farF.Within 1024 := lookFrom_within (by intro a; fin_cases a <;> norm_num [abs_le, third]) (by
  intro x hx a
  have : x = ![1002, 0, 0] := by simpa using hx
  subst this
  fin_cases a <;> norm_num [abs_le, third])

theorem farF_place : farF.place ![1002, 0, 0] = ![5 / 2, 3 / 2, 1 / 2] := by
  unfold farF
  rw [lookFrom_place]
  funext a
  fin_cases a <;> norm_num [third]

/-- The grid of four by four by four cells. -/
def gridF : RayGrid Fused := ⟨⟨4, 4, 4⟩, (.fin 1, false), (.fin 1, false), fun _ => (.fin 4, false)⟩

theorem gridF_given {u B : ℚ} (hu : 0 ≤ u) (hB : 4 ≤ B) : GridGiven Prod.fst u 1 B gridF where
  inv := ⟨1, rfl, by norm_num; linarith⟩
  size := fun a => ⟨4, rfl, by
    have : (0 : ℚ) ≤ 4 * (u * B) := by positivity
    fin_cases a <;> norm_num [gridF, axisCells] <;> linarith⟩
  extent := fun a => by fin_cases a <;> norm_num [gridF, axisCells] <;> linarith

/-- The camera as the CPU gets it. -/
def farFcloud : CpuCloud Fused := ⟨fun k => (.fin (farF.pose k), false), (.fin 1010, false), [some ![(.fin 1002, false), (.fin 0, false), (.fin 0, false)]]⟩

/-- The camera as a device gets it. -/
def farFdev : DevCloud Fused := ⟨farFcloud.tf, farFcloud.range, farFcloud.points⟩

theorem farF_given {R : ℚ → Fl} {u η : ℚ} (hu : 0 ≤ u) (hη : 0 ≤ η) :
    Given Prod.fst (Fused.kept R) u η 1024 farF farFcloud.tf farFcloud.range farFcloud.points where
  turn := fun k _ => ⟨farF.pose k, rfl, by rw [sub_self, abs_zero]; exact hu⟩
  shift := fun a => ⟨farF.pose (12 + a), rfl, by rw [sub_self, abs_zero]; positivity⟩
  range := .inr ⟨1010, 1010, rfl, rfl, by norm_num, by norm_num, by rw [sub_self, abs_zero]; positivity⟩
  points := .cons (fun a => ⟨(![1002, 0, 0] : Fin 3 → ℚ) a, by fin_cases a <;> rfl, by rw [sub_self, abs_zero]; positivity⟩) .nil

theorem farF_point {sqrt : Fl → Fl} (hs : IeeeSqrt sqrt) : cpuPoint fusedDouble (fusedSqrt sqrt) gridF farFcloud
    (some ![(.fin 1002, false), (.fin 0, false), (.fin 0, false)]) = some [.filled ![2, 1, 0], .free ![0, 1, 0], .free ![1, 1, 0]] := by
  have e : flLength fusedDouble (fusedSqrt sqrt) (cpuOrigin fusedDouble farFcloud.tf)
      (cpuTransform fusedDouble farFcloud.tf ![(.fin 1002, false), (.fin 0, false), (.fin 0, false)]) = (.fin 1002, false) := by
    unfold flLength fusedSqrt
    refine congrArg (fun z => (z, false)) (Eq.trans (congrArg sqrt ?_) (ieeeSqrt_sq hs (m := 1002) (by norm_num)))
    decide +kernel
  unfold cpuPoint
  dsimp only
  rw [e]
  decide +kernel

theorem farF_point_fast {sqrt : Fl → Fl} (hs : FloatSqrt sqrt) : kernelPoint fastFloat (fusedSqrt sqrt) gridF farFdev
    (some ![(.fin 1002, false), (.fin 0, false), (.fin 0, false)]) = some [.filled ![2, 1, 0], .free ![0, 1, 0], .free ![1, 1, 0]] := by
  have e : flLength fastFloat (fusedSqrt sqrt) (kernelOrigin farFdev.tf)
      (kernelTransform fastFloat farFdev.tf ![(.fin 1002, false), (.fin 0, false), (.fin 0, false)]) = (.fin 1002, false) := by
    unfold flLength fusedSqrt
    refine congrArg (fun z => (z, false)) (Eq.trans (congrArg sqrt ?_) (floatSqrt_sq hs (m := 1002) (by norm_num)))
    decide +kernel
  unfold kernelPoint
  dsimp only
  rw [e]
  decide +kernel

theorem farF_only {x : Fin 3 → ℚ} (hx : some x ∈ farF.points) : x = ![1002, 0, 0] := by simpa [farF, lookFrom] using hx

theorem farF_well {tol : ℚ} (h0 : 0 ≤ tol) (h1 : tol ≤ 1) : WellWithin tol farF.range farF.sensor (farF.place ![1002, 0, 0]) := by
  intro r hr
  have : r = 1010 := by simpa [farF, lookFrom] using hr.symm
  subst this
  rw [farF_place]
  unfold farF
  rw [lookFrom_sensor]
  norm_num [distSq, third]
  constructor <;> nlinarith

/-- The hypotheses of `C85_obstacle_is_filled`, `C85_filled_is_real`, `C85_point_kept` and `C85_clearance` are met: fused operations in `double`. -/
theorem fused_case {sqrt : Fl → Fl} (hs : IeeeSqrt sqrt) : ∃ (output' : VoxMap ℚ) (F : SDFGrid ℝ) (e' : ℝ),
    FlVoxelizeRuns fusedDouble (fusedSqrt sqrt) gridF ⟨.fin 1, 1, 1⟩ [farFcloud] dark4 output' ∧
    output'.data (dataIndex gridF.dims ![2, 1, 0]) = .fin 1 ∧
    Answers (fun _ => 0) (flTrilinear (roundedArith roundDouble)) (fun l => l.v) id id ⟨.fin 0, false, false⟩ output' 1 6 F
      (point4 corner) e' corner ∧ (∀ x, InFrame F.pose.R F.pose.t x x) ∧
    e' - (Real.sqrt 3 + 3 + (6 : ℚ) / 2 ^ 18 + (6 : ℚ) ^ 2 / 2 ^ 37) * (1 : ℚ) - dist3 corner corner - 2 * (fairTol (3 * (1 / 2 ^ 53)) 1024 : ℚ) ≤
      dist3 corner (fun a => ((farF.place ![1002, 0, 0] a : ℚ) : ℝ)) := by
  have H := fusedDouble_accurate hs
  have S := room_double (e := 1) (B := 1024) (by norm_num) (by norm_num) (by norm_num)
  have G : GridGiven Prod.fst (3 * (1 / 2 ^ 53)) 1 1024 gridF := gridF_given (by norm_num) (by norm_num)
  have hlen : ∀ c ∈ [farFcloud], c.points.length < 2 ^ 31 := by simp [farFcloud]
  have hg := farF_given (R := doubleR) (u := 3 * (1 / 2 ^ 53)) (η := 3 * (1 / 2 ^ 1075)) (by norm_num) (by positivity)
  have hx : some ![1002, 0, 0] ∈ farF.points := List.mem_cons_self
  have htol : fairFarTol (3 * (1 / 2 ^ 53)) 1024 ≤ 2 / 5 := by norm_num [fairFarTol]
  have htol' : fairTol (3 * (1 / 2 ^ 53)) 1024 < 1 / 10 := by norm_num [fairTol]
  have hw := farF_well (fairTol_nonneg S) (by linarith)
  obtain ⟨out, hout⟩ := (C74_defined (A := fusedDouble) (sqrt := fusedSqrt sqrt) (g := gridF) (clouds := [farFcloud]) plain_filter hlen
    (output := dark4) rfl).2 (by
      intro c hc
      obtain rfl := List.mem_singleton.1 hc
      refine ⟨by decide +kernel, fun x hx => ?_⟩
      obtain rfl := List.mem_singleton.1 hx
      rw [farF_point hs]
      rfl)
  have h1 := C85_obstacle_is_filled H S G plain_filter hlen rfl hout (List.mem_singleton_self _) farF_within hg (i := ![2, 1, 0]) far_in (dark4_half _)
    (howMany_one hx ⟨by rw [farF_place]; exact far_deep htol, hw⟩)
  obtain ⟨-, hd, -, hkeep⟩ := C74_keeps_filled hout
  have hl := far_low (f := fun c x => c.place x) (c := farF) (tol := fairTol (3 * (1 / 2 ^ 53)) 1024) hd htol' (fun x hx => by
      rw [farF_only hx, farF_place]; norm_num [third]) (fun i hi ha =>
    C85_filled_is_real H S G plain_filter hlen rfl hout (.cons ⟨farF_within, hg⟩ .nil) hi (dark4_half i) (by
      refine above_cases ha ?_
      rcases (hkeep _ (dataIndex_lt (d := grid4.dims) hi)).2 (dark4_half i) with h | h | h
      · exact .inl h
      · exact .inr (.inl h)
      · exact .inr (.inr h)))
  have hdeep : DeepInGrid (fairFarTol (3 * (1 / 2 ^ 53)) 1024) 1 (axisCells gridF.dims) (farF.place ![1002, 0, 0]) := by
    rw [farF_place]
    exact far_grid htol
  have hk := C85_point_kept H S G plain_filter hlen rfl dark4_nonan hout (List.mem_singleton_self _) farF_within hg hx hdeep hw
  obtain ⟨F, e', hA, hfr⟩ := low_answers (n := 6) (by norm_num) (by norm_num) hl hk
  exact ⟨out, F, e', hout, h1, hA, hfr, C85_clearance H S G plain_filter hlen rfl dark4_nonan hout (List.mem_singleton_self _) farF_within hg hx hdeep hw
    hA (hfr _)⟩

/-- The hypotheses of `C85_device_obstacle_is_filled`, `C85_device_filled_is_real`, `C85_device_point_kept` and `C85_device_clearance` are met: `float`
with fused operations, rough division and no denormal numbers. -/
theorem fast_case {sqrt : Fl → Fl} (hs : FloatSqrt sqrt) : ∃ (output' : VoxMap ℚ) (F : SDFGrid ℝ) (e' : ℝ),
    FastDeviceRuns roughShare (cudaApi 256) fastFloat (fusedSqrt sqrt) gridF ⟨.fin 1, 1, 1⟩ [farFdev] dark4 dark4 output' ∧
    output'.data (dataIndex gridF.dims ![2, 1, 0]) = .fin 1 ∧
    Answers (fun _ => 0) (flTrilinear (roundedArith roundDouble)) (fun l => l.v) id id ⟨.fin 0, false, false⟩ output' 1 6 F
      (point4 corner) e' corner ∧ (∀ x, InFrame F.pose.R F.pose.t x x) ∧
    e' - (Real.sqrt 3 + 3 + (6 : ℚ) / 2 ^ 18 + (6 : ℚ) ^ 2 / 2 ^ 37) * (1 : ℚ) - dist3 corner corner - 2 * (fairTol (3 * (1 / 2 ^ 24)) 1024 : ℚ) ≤
      dist3 corner (fun a => ((farF.place ![1002, 0, 0] a : ℚ) : ℝ)) := by
  have H := fastFloat_accurate (sqrt := sqrt) fun q hq => by
    obtain ⟨y, k1, k2, k3⟩ := sqrtRounds_float hs q hq
    exact ⟨y, k1, k2, k3.trans (by norm_num; linarith)⟩
  have S := room_float (e := 1) (B := 1024) (by norm_num) (by norm_num) (by norm_num)
  have G : GridGiven Prod.fst (3 * (1 / 2 ^ 24)) 1 1024 gridF := gridF_given (by norm_num) (by norm_num)
  have hh : Helper (F := Fused) (cudaApi 256) [farFdev] := .inr ⟨256, by norm_num, rfl, by simp [farFdev, farFcloud]⟩
  have hN : gridF.dims.total * 2 * numTrackingGrids [farFdev] < 2 ^ 31 := by
    norm_num [gridF, numTrackingGrids, Dims.total]
  have hlen : ∀ c ∈ [farFdev], c.points.length ≤ 2 ^ 22 := by simp [farFdev, farFcloud]
  have hg : Given Prod.fst (Fused.kept flushR) (3 * (1 / 2 ^ 24)) (3 * (1 / 2 ^ 126)) 1024 farF farFdev.tf farFdev.range farFdev.points :=
    farF_given (by norm_num) (by positivity)
  have hx : some ![1002, 0, 0] ∈ farF.points := List.mem_cons_self
  have htol : fairFarTol (3 * (1 / 2 ^ 24)) 1024 ≤ 2 / 5 := by norm_num [fairFarTol]
  have htol' : fairTol (3 * (1 / 2 ^ 24)) 1024 < 1 / 10 := by norm_num [fairTol]
  have hw := farF_well (fairTol_nonneg S) (by linarith)
  obtain ⟨out, hout⟩ := fast_defined (K := ℚ) (share := roughShare) (A := fastFloat) (sqrt := fusedSqrt sqrt) (g := gridF) (clouds := [farFdev])
    (static := dark4) (output := dark4) plain_filter hh hN (fun c hc => (hlen c hc).trans (by norm_num)) rfl (by
      intro c hc
      obtain rfl := List.mem_singleton.1 hc
      intro x hx
      obtain rfl := List.mem_singleton.1 hx
      rw [farF_point_fast hs]
      rfl)
  have h1 := C85_device_obstacle_is_filled H S G fairShare_rough (by norm_num) plain_filter hh hN hlen rfl hout (List.mem_singleton_self _) farF_within
    hg (i := ![2, 1, 0]) far_in (dark4_half _) (howMany_one hx ⟨by rw [farF_place]; exact far_deep htol, hw⟩)
  have hl := far_low (f := fun c x => c.place x) (c := farF) (tol := fairTol (3 * (1 / 2 ^ 24)) 1024) (fast_dims hout) htol' (fun x hx => by
      rw [farF_only hx, farF_place]; norm_num [third]) (fun i hi ha =>
    C85_device_filled_is_real H S G plain_filter hh hN rfl hout (.cons ⟨farF_within, hg⟩ .nil) hi (dark4_half i) (by
      refine above_cases ha ?_
      obtain ⟨r, -, e⟩ := fast_cell hh hN rfl hout (i := i) hi (dark4_half i)
      have e : out.data (dataIndex grid4.dims i) = _ := e
      unfold Fl.half at e
      split_ifs at e
      · exact .inr (.inr e)
      · exact .inl e
      · exact .inr (.inl e)))
  have hdeep : DeepInGrid (fairFarTol (3 * (1 / 2 ^ 24)) 1024) 1 (axisCells gridF.dims) (farF.place ![1002, 0, 0]) := by
    rw [farF_place]
    exact far_grid htol
  have hk := C85_device_point_kept H S G fairShare_rough (by norm_num) plain_filter hh hN hlen rfl rfl dark4_nonan hout (List.mem_singleton_self _)
    farF_within hg hx hdeep hw
  obtain ⟨F, e', hA, hfr⟩ := low_answers (n := 6) (by norm_num) (by norm_num) hl hk
  exact ⟨out, F, e', hout, h1, hA, hfr, C85_device_clearance H S G fairShare_rough (by norm_num) plain_filter hh hN hlen rfl rfl dark4_nonan hout
    (List.mem_singleton_self _) farF_within hg hx hdeep hw hA (hfr _)⟩

end VGT
