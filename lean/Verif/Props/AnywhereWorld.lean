import Verif.Props.Anywhere
import Verif.Props.WorldEx

/-!
C84: sensors anywhere in the world; a ray almost parallel to a face and a point at the sensor, for which there is no result.
-/
set_option autoImplicit false

namespace VGT
open VGT.EDT VGT.Spec VGT.Par

section
variable {o p o' p' : Fin 3 → ℚ} {ε δ δ' ν : ℚ}

theorem apart_shift (hw : ∀ a, |(p' a - o' a) - (p a - o a)| ≤ ε) (hδ : 0 ≤ δ) (h : δ + 2 * ε < δ') (h' : Apart δ' o' p') : Apart δ o p := by
  by_contra hn
  have hε : 0 ≤ ε := (abs_nonneg _).trans (hw 0)
  have hnb : NotBeyond 0 (.fin δ) o p := by
    intro r hr
    cases hr
    unfold Apart at hn
    rw [add_zero]
    exact (not_le.1 hn).le
  have h2 := notBeyond_shift (tol' := 2 * ε) (fun r hr => by cases hr; exact hδ) le_rfl hw (by linarith) hnb δ rfl
  have h3 : δ' ^ 2 ≤ (δ + 2 * ε) ^ 2 := le_trans h' h2
  have h4 : (δ + 2 * ε) ^ 2 < δ' ^ 2 := by
    have : 0 ≤ δ + 2 * ε := by linarith
    nlinarith
  linarith

theorem sq_near {x y ε : ℚ} (h : |x - y| ≤ ε) : y ^ 2 ≤ 11 / 10 * x ^ 2 + 11 * ε ^ 2 := by
  have h1 : (x - y) ^ 2 ≤ ε ^ 2 := by
    have h0 : 0 ≤ ε := (abs_nonneg _).trans h
    rw [← sq_abs (x - y)]
    exact pow_le_pow_left₀ (abs_nonneg _) h 2
  nlinarith [sq_nonneg (x + 10 * (x - y))]

theorem getsOn_shift {a : Fin 3} (hw : ∀ a, |(p' a - o' a) - (p a - o a)| ≤ ε) (hν : 0 ≤ ν) (hν1 : ν ≤ 1) (hδ : 200 * ε ≤ δ)
    (h' : GetsOn (5 / 4 * ν) (δ + ε) a o' p') : GetsOn ν δ a o p := by
  obtain ⟨h1, h2⟩ := h'
  have hε : 0 ≤ ε := (abs_nonneg _).trans (hw 0)
  have ha : δ ≤ |p a - o a| := by
    have := abs_sub_abs_le_abs_sub (p' a - o' a) (p a - o a)
    have := hw a
    linarith
  refine ⟨ha, ?_⟩
  have hd : distSq o p ≤ 11 / 10 * distSq o' p' + 33 * ε ^ 2 := by
    have e0 := sq_near (hw 0)
    have e1 := sq_near (hw 1)
    have e2 := sq_near (hw 2)
    unfold distSq
    linarith
  have hs := sq_near (abs_sub_comm (p' a - o' a) (p a - o a) ▸ hw a)
  have hε2 : 40000 * ε ^ 2 ≤ (p a - o a) ^ 2 := by
    have : 200 * ε ≤ |p a - o a| := hδ.trans ha
    rw [← sq_abs (p a - o a)]
    nlinarith
  have hν2 : ν ^ 2 ≤ 1 := by nlinarith
  have h3 : (4 * ν) ^ 2 * distSq o p ≤ (4 * ν) ^ 2 * (11 / 10 * distSq o' p' + 33 * ε ^ 2) := mul_le_mul_of_nonneg_left hd (by positivity)
  have h4 : ν ^ 2 * ε ^ 2 ≤ ε ^ 2 := mul_le_of_le_one_left (by positivity) hν2
  have h5 : (4 * (5 / 4 * ν)) ^ 2 * distSq o' p' = 25 * (ν ^ 2 * distSq o' p') := by ring
  have h6 : (4 * ν) ^ 2 * (11 / 10 * distSq o' p' + 33 * ε ^ 2) = 88 / 5 * (ν ^ 2 * distSq o' p') + 528 * (ν ^ 2 * ε ^ 2) := by ring
  rw [h5] at h2
  rw [h6] at h3
  have hE := sq_nonneg ε
  linarith

theorem between_shift {s tol tol' : ℚ} {n : Fin 3 → ℕ} {a : Fin 3} (hw : ∀ a, |o' a - o a| ≤ ε) (h : tol + ε ≤ tol') (h' : BetweenFaces tol' s n a o') :
    BetweenFaces tol s n a o := by
  have := abs_le.1 (hw a)
  exact ⟨by linarith [h'.1], by linarith [h'.2]⟩

end

section
variable {late : ℕ → Bool} {gw : ℕ → ℚ} {sqrt : Fl → Fl} {s e v n ν B pct : ℚ} {g : RayGrid Fl} {K : Type} {api : DeviceApi} {t k : ℤ}
  {op : FilterOptions} {cams : List Camera3} {static output : VoxMap K}

/-- C84, the CPU with sensors anywhere in the world: every voxelization has a result if coordinates are at most `2^22 / 5` cells and no point
is measured at a sensor outside the grid (nearer than `6000 B / 2^53`). -/
theorem C84_world_has_result (hs : IeeeSqrt sqrt) (G : DoubleGrid s n (5 * B) g) (hB : 1 / 2 ^ 60 ≤ B) (hBs : 5 * B ≤ 2 ^ 22 * s)
    (hsize : ∀ a, ∃ z, g.size a = .fin z ∧ |z - axisCells g.dims a * s| ≤ s)
    (hop : FilterOptions.make (.fin pct) t k = some op) (hlen : ∀ c ∈ cams, c.points.length < 2 ^ 31)
    (hc : ∀ c ∈ cams, Posed gw B c) (hr : ∀ c ∈ cams, DoubleRange c.range)
    (hpts : ∀ c ∈ cams, DeepInGrid (doubleTol s n (5 * B) + poseTol B) s (axisCells g.dims) (c.sensorIn gw) ∨
      ∀ x, some x ∈ c.points → Apart (6000 * B / 2 ^ 53) (c.sensorIn gw) (c.placeIn gw x)) (hd : output.dims = g.dims) :
    ∃ output', FlVoxelizeRuns double64 sqrt g op (cams.map (Camera3.cloudIn late gw)) output output' := by
  have hB' := five_le hB G.B_le
  have hB0 : 0 < B := lt_of_lt_of_le (by norm_num) hB
  rw [hat_clouds hc hB hB']
  refine C84_double_has_result hs G hBs hsize hop (all_hat hlen fun _ _ h => h) (all_hat hc fun _ _ H => hat_within H hB hB')
    (all_hat (P := fun c => DoubleRange c.range) hr fun _ _ h => h) (all_hat (P := fun c =>
      DeepInGrid (doubleTol s n (5 * B)) s (axisCells g.dims) c.sensor ∨
        ∀ x, some x ∈ c.points → Apart (1000 * (5 * B) / 2 ^ 53) c.sensor (c.place x)) hpts fun c hcm h => ?_) hd
  rcases h with h | h
  · exact .inl (pose_sensor (hc c hcm) hB hB' h)
  · refine .inr fun x hx => apart_shift (pose_beside (late := late) (hc c hcm) hB hB' hx).way (by positivity) ?_ (h x hx)
    have : 0 < B / 2 ^ 53 := by positivity
    linarith

/-- C84, devices with sensors anywhere in the world (`C84_float_has_result`). -/
theorem C84_world_float_has_result (hs : FloatSqrt sqrt) (G : FloatGrid e v n (5 * B) g) (hν : 9 / 10 ^ 11 ≤ ν) (hν1 : ν ≤ 1)
    (hBe : 45 * B + 3 * (n * e) ≤ 2 ^ 26 * (ν * e)) (hsize : ∀ a, ∃ z, g.size a = .fin z ∧ |z - axisCells g.dims a * e| ≤ n * e / 2 ^ 24)
    (hh : Helper api (cams.map (Camera3.devIn floatR late gw)))
    (hN : g.dims.total * 2 * numTrackingGrids (cams.map (Camera3.devIn floatR late gw)) < 2 ^ 31)
    (hop : FilterOptions.make (.fin pct) t k = some op) (hlen : ∀ c ∈ cams, c.points.length ≤ 2 ^ 24)
    (hc : ∀ c ∈ cams, Posed gw B c) (hr : ∀ c ∈ cams, FloatRange c.range)
    (hpts : ∀ c ∈ cams, DeepInGrid (floatTol e n (5 * B) + poseTol B) e (axisCells g.dims) (c.sensorIn gw) ∨ ∀ x, some x ∈ c.points →
      Apart (6000 * B / 2 ^ 24) (c.sensorIn gw) (c.placeIn gw x) ∧
      ∀ a, BetweenFaces (floatTol e n (5 * B) + poseTol B) e (axisCells g.dims) a (c.sensorIn gw) ∨
        GetsOn (5 / 4 * ν) (6000 * B / 2 ^ 24) a (c.sensorIn gw) (c.placeIn gw x)) (hd : static.dims = g.dims) :
    ∃ output', DeviceVoxelizeRuns api float32 sqrt g op (cams.map (Camera3.devIn floatR late gw)) static output output' := by
  obtain ⟨hB, hB'⟩ := float_bounds G
  have hB0 : 0 < B := lt_of_lt_of_le (by norm_num) hB
  have hν0 : 0 ≤ ν := le_trans (by norm_num) hν
  rw [hat_devs hc hB hB'] at hh hN ⊢
  refine C84_float_has_result hs G hν hν1 (by linarith) hsize hh hN hop (all_hat hlen fun _ _ h => h)
    (all_hat hc fun _ _ H => hat_within H hB hB') (all_hat hc fun _ _ H => hat_turns H hB hB')
    (all_hat (P := fun c => FloatRange c.range) hr fun _ _ h => h)
    (all_hat (P := fun c => DeepInGrid (floatTol e n (5 * B)) e (axisCells g.dims) c.sensor ∨ ∀ x, some x ∈ c.points →
      Apart (1000 * (5 * B) / 2 ^ 24) c.sensor (c.place x) ∧
      ∀ a, BetweenFaces (floatTol e n (5 * B)) e (axisCells g.dims) a c.sensor ∨ GetsOn ν (1000 * (5 * B) / 2 ^ 24) a c.sensor (c.place x)) hpts
      fun c hcm h => ?_) hd
  rcases h with h | h
  · exact .inl (pose_sensor (hc c hcm) hB hB' h)
  · refine .inr fun x hx => ?_
    obtain ⟨h1, h2⟩ := h x hx
    have K := pose_beside (late := late) (hc c hcm) hB hB' hx
    have e1 : 30 * B / 2 ^ 53 ≤ B / 2 ^ 24 / 10 ^ 6 := by linarith
    have hB1 : 0 < B / 2 ^ 24 := by positivity
    refine ⟨apart_shift K.way (by positivity) (by linarith) h1, fun a => ?_⟩
    rcases h2 a with h | h
    · exact .inl (between_shift K.start (pose_costs hB).1 h)
    · refine .inr (getsOn_shift K.way hν0 hν1 (by linarith) ⟨le_trans (by linarith) h.1, h.2⟩)

end

/-! ### A ray almost parallel to a face, on a device -/

/-- Four by four by four cells of 1/128. -/
def fine4 : RayGrid Fl := ⟨⟨4, 4, 4⟩, .fin (1 / 128), .fin 128, fun _ => .fin (1 / 32)⟩

/-- A camera before the grid that looks past it, almost parallel to its face. -/
def past4 : Camera3 := lookFrom ![-1, 1 / 64, 1 / 64] .pinf [some ![1 / 2 ^ 24, 1, 0]]

theorem fine4_double : DoubleGrid (1 / 128) 6 8 fine4 where
  s_ge := by norm_num
  s_le := by norm_num
  cell := rfl
  inv := by decide +kernel
  dims := by intro a; fin_cases a <;> norm_num [fine4, axisCells]
  n_ge := by norm_num
  n_le := by norm_num
  B_ge := by norm_num
  B_le := by norm_num

theorem past4_dev {sqrt : Fl → Fl} (hs : FloatSqrt sqrt) : kernelPoint float32 sqrt fine4 (past4.dev floatR)
    (some fun a => floatR (![1 / 2 ^ 24, 1, 0] a)) = none := by
  have e : flLength float32 sqrt (kernelOrigin (past4.dev floatR).tf)
      (kernelTransform float32 (past4.dev floatR).tf fun a => floatR (![1 / 2 ^ 24, 1, 0] a)) = .fin 1 := by
    unfold flLength
    refine Eq.trans (congrArg sqrt ?_) (floatSqrt_sq hs (m := 1) (by norm_num))
    decide +kernel
  unfold kernelPoint
  dsimp only
  rw [e]
  decide +kernel

theorem past4_within : past4.Within 8 := by
  refine lookFrom_within ?_ ?_
  · intro a
    fin_cases a <;> norm_num [abs_le, third]
  · intro x hx a
    have : x = ![1 / 2 ^ 24, 1, 0] := by simpa using hx
    subst this
    fin_cases a <;> norm_num [abs_le, third]

theorem past4_place : past4.place ![1 / 2 ^ 24, 1, 0] = ![-1 + 1 / 2 ^ 24, 1 + 1 / 64, 1 / 64] := by
  unfold past4
  rw [lookFrom_place]
  funext a
  fin_cases a <;> norm_num [third]

/-- C84, negative: on an OpenCL device a voxelization can be undefined although no coordinate exceeds 130 cells.  The ray misses the
grid; it would reach the plane of the face after `2^24`, at index `2^31`.  On the CPU the same voxelization has a result. -/
theorem C84_device_undefined {sqrt sqrt' : Fl → Fl} (hs : FloatSqrt sqrt) (hs' : IeeeSqrt sqrt') :
    (¬ ∃ output', DeviceVoxelizeRuns openclApi float32 sqrt fine4 ⟨.fin 1, 1, 1⟩ ([past4].map (Camera3.dev floatR)) dark4 dark4 output') ∧
    (∃ output', FlVoxelizeRuns double64 sqrt' fine4 ⟨.fin 1, 1, 1⟩ ([past4].map Camera3.cloud) dark4 output') ∧
    (∀ a, |past4.sensor a| ≤ 130 * (1 / 128)) ∧ ∀ x, some x ∈ past4.points → (∀ a, |past4.place x a| ≤ 130 * (1 / 128)) ∧
      Apart 1 past4.sensor (past4.place x) := by
  have hop := plain_filter
  have hh : Helper (F := Fl) openclApi ([past4].map (Camera3.dev floatR)) := .inl ⟨rfl, by simp [past4, lookFrom, Camera3.dev]⟩
  have hN : fine4.dims.total * 2 * numTrackingGrids ([past4].map (Camera3.dev floatR)) < 2 ^ 31 := by decide
  have hlen : ∀ c ∈ [past4], c.points.length ≤ 2 ^ 24 := by decide
  have hapart : ∀ x, some x ∈ past4.points → Apart 1 past4.sensor (past4.place x) := by
    intro x hx
    have : x = ![1 / 2 ^ 24, 1, 0] := by simpa [past4, lookFrom] using hx
    subst this
    rw [past4_place]
    unfold past4 Apart
    rw [lookFrom_sensor]
    norm_num [distSq, third]
  refine ⟨?_, ?_, ?_, fun x hx => ⟨?_, hapart x hx⟩⟩
  · intro hex
    have := (C57_device_defined (A := float32) (sqrt := sqrt) (g := fine4) hh hN hop (devs_length hlen) (static := dark4)
      (output := dark4) rfl).1 hex (past4.dev floatR) (List.mem_singleton_self _) (some fun a => floatR (![1 / 2 ^ 24, 1, 0] a))
      (by simp [Camera3.dev, past4, lookFrom])
    rw [past4_dev hs] at this
    cases this
  · refine C84_double_has_result hs' fine4_double (by norm_num) ?_ hop ?_ ?_ ?_ ?_ rfl
    · intro a
      refine ⟨1 / 32, rfl, ?_⟩
      fin_cases a <;> norm_num [fine4, axisCells]
    · decide
    · intro c hc
      obtain rfl := List.mem_singleton.1 hc
      exact past4_within
    · intro c hc
      obtain rfl := List.mem_singleton.1 hc
      exact ⟨by decide, fun r hr => by cases hr⟩
    · intro c hc
      obtain rfl := List.mem_singleton.1 hc
      refine .inr fun x hx => ?_
      have := hapart x hx
      unfold Apart at this ⊢
      exact le_trans (by norm_num) this
  · intro a
    unfold past4
    rw [lookFrom_sensor]
    fin_cases a <;> norm_num [abs_le, third]
  · have : x = ![1 / 2 ^ 24, 1, 0] := by simpa [past4, lookFrom] using hx
    subst this
    rw [past4_place]
    intro a
    fin_cases a <;> norm_num [abs_le, third]

/-! ### A point measured at the sensor -/

/-- A camera before the grid that measures a point at itself. -/
def self4 : Camera3 := lookFrom ![-1, 1 / 2, 1 / 2] .pinf [some ![0, 0, 0]]

theorem self4_dev {sqrt : Fl → Fl} (hs : FloatSqrt sqrt) : kernelPoint float32 sqrt grid4 (self4.dev floatR)
    (some fun a => floatR (![0, 0, 0] a)) = none := by
  have e : flLength float32 sqrt (kernelOrigin (self4.dev floatR).tf)
      (kernelTransform float32 (self4.dev floatR).tf fun a => floatR (![0, 0, 0] a)) = .fin 0 := by
    unfold flLength
    refine Eq.trans (congrArg sqrt ?_) (floatSqrt_sq hs (m := 0) (by norm_num))
    decide +kernel
  unfold kernelPoint
  dsimp only
  rw [e]
  decide +kernel

theorem self4_point {sqrt : Fl → Fl} (hs : IeeeSqrt sqrt) : cpuPoint double64 sqrt grid4 self4.cloud (some ![.fin 0, .fin 0, .fin 0]) = none := by
  have e : flLength double64 sqrt (cpuOrigin double64 self4.cloud.tf) (cpuTransform double64 self4.cloud.tf ![.fin 0, .fin 0, .fin 0]) =
      .fin 0 := by
    unfold flLength
    refine Eq.trans (congrArg sqrt ?_) (ieeeSqrt_sq hs (m := 0) (by norm_num))
    decide +kernel
  unfold cpuPoint
  dsimp only
  rw [e]
  decide +kernel

/-- C84, negative: a point measured at a sensor outside the grid makes the voxelization undefined, on the CPU and on an OpenCL device. -/
theorem C84_point_at_sensor {sqrt sqrt' : Fl → Fl} (hs : FloatSqrt sqrt) (hs' : IeeeSqrt sqrt') :
    (¬ ∃ output', DeviceVoxelizeRuns openclApi float32 sqrt grid4 ⟨.fin 1, 1, 1⟩ ([self4].map (Camera3.dev floatR)) dark4 dark4 output') ∧
    (¬ ∃ output', FlVoxelizeRuns double64 sqrt' grid4 ⟨.fin 1, 1, 1⟩ ([self4].map Camera3.cloud) dark4 output') := by
  have hop := plain_filter
  have hh : Helper (F := Fl) openclApi ([self4].map (Camera3.dev floatR)) := .inl ⟨rfl, by simp [self4, lookFrom, Camera3.dev]⟩
  have hN : grid4.dims.total * 2 * numTrackingGrids ([self4].map (Camera3.dev floatR)) < 2 ^ 31 := by decide
  have hlen : ∀ c ∈ [self4], c.points.length ≤ 2 ^ 24 := by decide
  have hlen' : ∀ c ∈ [self4], c.points.length < 2 ^ 31 := by decide
  constructor
  · intro hex
    have := (C57_device_defined (A := float32) (sqrt := sqrt) (g := grid4) hh hN hop (devs_length hlen) (static := dark4)
      (output := dark4) rfl).1 hex (self4.dev floatR) (List.mem_singleton_self _) (some fun a => floatR (![0, 0, 0] a))
      (by simp [Camera3.dev, self4, lookFrom])
    rw [self4_dev hs] at this
    cases this
  · intro hex
    have := ((C74_defined (A := double64) (sqrt := sqrt') (g := grid4) hop (clouds_length hlen') (output := dark4) rfl).1 hex
      self4.cloud (List.mem_singleton_self _)).2 (some ![.fin 0, .fin 0, .fin 0]) (by
        rw [← fin3_map]
        simp [Camera3.cloud, self4, lookFrom])
    rw [self4_point hs'] at this
    cases this

/-! ### Cases that meet the hypotheses -/

theorem before4_far {δ : ℚ} (h0 : 0 ≤ δ) (h : δ ≤ 4) {x : Fin 3 → ℚ} (hx : some x ∈ before4.points) :
    Apart δ before4.sensor (before4.place x) ∧ GetsOn (1 / 4) δ 0 before4.sensor (before4.place x) := by
  have : x = ![4, 0, 0] := by simpa [before4, lookFrom] using hx
  subst this
  have hplace : before4.place ![4, 0, 0] = ![5 / 2, 1 / 2, 1 / 2] := by
    unfold before4
    rw [lookFrom_place]
    funext a
    fin_cases a <;> norm_num
  have hsensor : before4.sensor = ![-3 / 2, 1 / 2, 1 / 2] := lookFrom_sensor _ _ _
  rw [hplace, hsensor]
  refine ⟨?_, ?_, ?_⟩
  · unfold Apart
    norm_num [distSq, third]
    nlinarith
  · norm_num
    exact h
  · norm_num [distSq, third]

example {sqrt : Fl → Fl} (hs : IeeeSqrt sqrt) : ∃ output',
    FlVoxelizeRuns double64 sqrt grid4 ⟨.fin 1, 1, 1⟩ ([before4].map Camera3.cloud) dark4 output' := by
  refine C84_double_has_result hs (grid4_double (n := 6) (by norm_num) (by norm_num)) (by norm_num) (grid4_size (by norm_num)) plain_filter
    (by decide) ?_ ?_ ?_ rfl
  · intro c hc
    obtain rfl := List.mem_singleton.1 hc
    exact before4_within
  · intro c hc
    obtain rfl := List.mem_singleton.1 hc
    refine ⟨by decide, fun r hr => ?_⟩
    have : r = 5 := by simpa [before4, lookFrom] using hr.symm
    rw [this]
    norm_num
  · intro c hc
    obtain rfl := List.mem_singleton.1 hc
    exact .inr fun x hx => (before4_far (by norm_num) (by norm_num) hx).1

example {sqrt : Fl → Fl} (hs : FloatSqrt sqrt) : ∃ output',
    DeviceVoxelizeRuns openclApi float32 sqrt grid4 ⟨.fin 1, 1, 1⟩ ([before4].map (Camera3.dev floatR)) dark4 dark4 output' := by
  have hh : Helper (F := Fl) openclApi ([before4].map (Camera3.dev floatR)) := .inl ⟨rfl, by simp [before4, lookFrom, Camera3.dev]⟩
  refine C84_float_has_result (ν := 1 / 4) hs grid4_float (by norm_num) (by norm_num) (by norm_num) (grid4_size (by norm_num)) hh (by decide)
    plain_filter (by decide) ?_ ?_ ?_ ?_ rfl
  · intro c hc
    obtain rfl := List.mem_singleton.1 hc
    exact before4_within
  · intro c hc
    obtain rfl := List.mem_singleton.1 hc
    exact lookFrom_turns _ _ _
  · intro c hc
    obtain rfl := List.mem_singleton.1 hc
    refine ⟨by decide, fun r hr => ?_⟩
    have : r = 5 := by simpa [before4, lookFrom] using hr.symm
    rw [this]
    norm_num
  · intro c hc
    obtain rfl := List.mem_singleton.1 hc
    refine .inr fun x hx => ?_
    have h := before4_far (δ := 1000 * 8 / 2 ^ 24) (by norm_num) (by norm_num) hx
    have hsensor : before4.sensor = ![-3 / 2, 1 / 2, 1 / 2] := lookFrom_sensor _ _ _
    refine ⟨h.1, fun a => ?_⟩
    fin_cases a
    · exact .inr h.2
    · left
      rw [hsensor]
      constructor <;> norm_num [floatTol, grid4, axisCells]
    · left
      rw [hsensor]
      constructor <;> norm_num [floatTol, grid4, axisCells, third]

example (range : Fl) (hr : range = .pinf ∨ range = .fin 5) : (flRaycast double64 grid4 (fun a => .fin (![-3 / 2, 1 / 2, 1 / 2] a))
    (fun a => .fin (![5 / 2, 1 / 2, 1 / 2] a)) (.fin 4) range).isSome := by
  refine C84_ray_defined (R := fun q => saturate ((2 - 1 / 2 ^ 52) * 2 ^ 1023) (roundDouble q)) (bits := 64) (g := grid4) (X := 10)
    (ν := 9 / 10 ^ 11) (K := 2 ^ 50) (inv := 1) (z := fun _ => 4) rounds_double (keepsSigns_saturate 53 (-1074) (by norm_num) _)
    (roughScale_double (by norm_num) (by norm_num)) rfl (by norm_num) (by norm_num) (le_trans (by norm_num) double_max_ge) (by norm_num)
    (fun a => rfl) ?_ ?_ ?_ (by norm_num) ?_ ?_ (fun a => .inr (.inr le_rfl)) ?_ ?_
  · intro a; fin_cases a <;> norm_num [abs_le, third]
  · intro a; fin_cases a <;> norm_num [abs_le, third]
  · intro a; fin_cases a <;> norm_num [abs_le, third]
  · have := one_div_pow_le (m := 200) (k := 1075) (by norm_num)
    exact le_trans (mul_le_mul_of_nonneg_left this (by norm_num)) (by norm_num)
  · intro a; fin_cases a <;> norm_num [abs_le, third]
  · rcases hr with rfl | rfl <;> decide
  · rcases hr with rfl | rfl <;> intro r h <;> cases h <;> norm_num

/-- The camera `before4` as placed in the world. -/
def beforeWorld : Camera3 := lookFrom ![5 / 2, -1 / 2, 1 / 2] .pinf [some ![0, 4, 0]]

theorem beforeWorld_posed : Posed turnedGrid 8 beforeWorld where
  rows := by intro a; fin_cases a <;> norm_num [turnedGrid]
  cols := by intro b; fin_cases b <;> norm_num [beforeWorld, lookFrom]
  grid := by intro a; fin_cases a <;> norm_num [turnedGrid]
  shift := by intro a; fin_cases a <;> norm_num [beforeWorld, lookFrom, abs_of_pos, abs_of_neg, third, abs_le]
  points := by
    intro x hx
    have : x = ![0, 4, 0] := by simpa [beforeWorld, lookFrom] using hx
    subst this
    intro a
    fin_cases a <;> norm_num [third]

theorem beforeWorld_sensor : beforeWorld.sensorIn turnedGrid = ![-3 / 2, 1 / 2, 1 / 2] := by
  unfold Camera3.sensorIn beforeWorld
  rw [turnedGrid_place, lookFrom_sensor]
  funext a
  fin_cases a <;> norm_num [third]

theorem beforeWorld_place : beforeWorld.placeIn turnedGrid ![0, 4, 0] = ![5 / 2, 1 / 2, 1 / 2] := by
  unfold Camera3.placeIn beforeWorld
  rw [turnedGrid_place, lookFrom_place]
  funext a
  fin_cases a <;> norm_num [third]

theorem beforeWorld_far {δ : ℚ} (h0 : 0 ≤ δ) (h : δ ≤ 4) {x : Fin 3 → ℚ} (hx : some x ∈ beforeWorld.points) :
    Apart δ (beforeWorld.sensorIn turnedGrid) (beforeWorld.placeIn turnedGrid x) ∧
      GetsOn (5 / 4 * (1 / 5)) δ 0 (beforeWorld.sensorIn turnedGrid) (beforeWorld.placeIn turnedGrid x) := by
  have : x = ![0, 4, 0] := by simpa [beforeWorld, lookFrom] using hx
  subst this
  rw [beforeWorld_place, beforeWorld_sensor]
  refine ⟨?_, ?_, ?_⟩
  · unfold Apart
    norm_num [distSq, third]
    nlinarith
  · norm_num
    exact h
  · norm_num [distSq, third]

example {sqrt : Fl → Fl} (hs : IeeeSqrt sqrt) (late : ℕ → Bool) : ∃ output',
    FlVoxelizeRuns double64 sqrt grid4 ⟨.fin 1, 1, 1⟩ ([beforeWorld].map (Camera3.cloudIn late turnedGrid)) dark4 output' := by
  refine C84_world_has_result (B := 8) hs grid4_double40 (by norm_num) (by norm_num) (grid4_size (by norm_num)) plain_filter
    (by decide) ?_ ?_ ?_ rfl
  · intro c hc
    obtain rfl := List.mem_singleton.1 hc
    exact beforeWorld_posed
  · intro c hc
    obtain rfl := List.mem_singleton.1 hc
    exact ⟨by decide, fun r hr => by cases hr⟩
  · intro c hc
    obtain rfl := List.mem_singleton.1 hc
    exact .inr fun x hx => (beforeWorld_far (by norm_num) (by norm_num) hx).1

example {sqrt : Fl → Fl} (hs : FloatSqrt sqrt) (late : ℕ → Bool) : ∃ output',
    DeviceVoxelizeRuns openclApi float32 sqrt grid4 ⟨.fin 1, 1, 1⟩ ([beforeWorld].map (Camera3.devIn floatR late turnedGrid)) dark4 dark4 output' := by
  have hh : Helper (F := Fl) openclApi ([beforeWorld].map (Camera3.devIn floatR late turnedGrid)) :=
    .inl ⟨rfl, by simp [beforeWorld, lookFrom, Camera3.devIn]⟩
  refine C84_world_float_has_result (ν := 1 / 5) (B := 8) hs grid4_float40 (by norm_num) (by norm_num) (by norm_num) (grid4_size (by norm_num)) hh
    (by norm_num [grid4, numTrackingGrids, Dims.total]) plain_filter (by decide) ?_ ?_ ?_ rfl
  · intro c hc
    obtain rfl := List.mem_singleton.1 hc
    exact beforeWorld_posed
  · intro c hc
    obtain rfl := List.mem_singleton.1 hc
    exact ⟨by decide, fun r hr => by cases hr⟩
  · intro c hc
    obtain rfl := List.mem_singleton.1 hc
    refine .inr fun x hx => ?_
    have h := beforeWorld_far (δ := 6000 * 8 / 2 ^ 24) (by norm_num) (by norm_num) hx
    refine ⟨h.1, fun a => ?_⟩
    fin_cases a
    · exact .inr h.2
    · left
      rw [beforeWorld_sensor]
      constructor <;> norm_num [floatTol, poseTol, grid4, axisCells]
    · left
      rw [beforeWorld_sensor]
      constructor <;> norm_num [floatTol, poseTol, grid4, axisCells, third]

end VGT
