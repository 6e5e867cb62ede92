import Verif.Props.RayDefined
import Verif.Props.CameraSeenEx

/-!
C84: when a voxelization has a result, wherever the sensors are.
-/
set_option autoImplicit false

namespace VGT
open VGT.EDT VGT.Spec VGT.Par

/-! ### What has to hold for the measured points -/

/-- The measured point is at least `δ` from the sensor. -/
def Spec.Apart (δ : ℚ) (o p : Fin 3 → ℚ) : Prop := δ ^ 2 ≤ distSq o p

/-- Along axis `a` the ray gets on by at least `δ` and by at least `4 ν` of its length. -/
def Spec.GetsOn (ν δ : ℚ) (a : Fin 3) (o p : Fin 3 → ℚ) : Prop := δ ≤ |p a - o a| ∧ (4 * ν) ^ 2 * distSq o p ≤ (p a - o a) ^ 2

/-- Along axis `a` the sensor is between the faces of the grid, at least `tol` from both. -/
def Spec.BetweenFaces (tol s : ℚ) (n : Fin 3 → ℕ) (a : Fin 3) (o : Fin 3 → ℚ) : Prop := tol ≤ o a ∧ o a ≤ n a * s - tol

section
variable {R : ℚ → Fl} {sqrt : Fl → Fl} {u η M s n N E B : ℚ} {g : RayGrid Fl} {bits : ℕ} {c : Camera3} {x o p : Fin 3 → ℚ} {len : ℚ}

theorem abs_le_of_sq_le {y A : ℚ} (hA : 0 ≤ A) (h : y ^ 2 ≤ A ^ 2) : |y| ≤ A := by
  rw [← abs_of_nonneg hA]
  exact sq_le_sq.1 h

theorem distSq_axis (o p : Fin 3 → ℚ) (a : Fin 3) : (p a - o a) ^ 2 ≤ distSq o p := by
  unfold distSq
  have h0 := sq_nonneg (p 0 - o 0)
  have h1 := sq_nonneg (p 1 - o 1)
  have h2 := sq_nonneg (p 2 - o 2)
  fin_cases a
  · show (p 0 - o 0) ^ 2 ≤ _
    linarith
  · show (p 1 - o 1) ^ 2 ≤ _
    linarith
  · show (p 2 - o 2) ^ 2 ≤ _
    linarith

/-- The rays of a camera anywhere are defined. -/
theorem ray_defined_anywhere (P : CamPrecise R sqrt u η M s n N E B g) (hsg : KeepsSigns R) {X ν K w : ℚ} (S : RoughScale u η M X ν)
    (hX : 9 * B + 2 * (N * s) ≤ X) (hη : 10 ^ 13 * η ≤ 700 * (ν * (u * B))) (hK : 1 ≤ K) (hKb : 16 * K ≤ 2 ^ (bits - 1)) (hKM : 4 * K ≤ M)
    (hKX : (X / ν + 1 / 10 ^ 9) * (11 / 10) ≤ K * s) (hw : w ≤ s)
    (hsize : ∀ a, ∃ z, g.size a = .fin z ∧ |z - axisCells g.dims a * s| ≤ w) (hc : c.Within B) (hr : RangeOk η B c.range)
    (F : RayFacts R sqrt u B bits c x o p len) (hapart : Apart (1000 * (u * B)) c.sensor (c.place x))
    (hcase : ∀ a, BetweenFaces (33 * (u * B) + w) s (axisCells g.dims) a c.sensor ∨ GetsOn ν (1000 * (u * B)) a c.sensor (c.place x) ∨
      ν ≤ 9 / 10 ^ 11) :
    (castRay R bits g c o p len).isSome := by
  obtain ⟨hu, hs, hB, huB, -, -⟩ := P.pos
  have hu1 := P.cam.u_le
  have huB1 : 9000 * (u * B) ≤ B := by have := mul_le_mul_of_nonneg_right hu1 hB.le; linarith
  have hν0 : 0 < ν := lt_of_lt_of_le (by norm_num) S.ν_ge
  obtain ⟨v, hv, hv'⟩ := P.grid.inv
  have hvs : |v| * s ≤ 11 / 10 := by
    have h1 := abs_sub_abs_le_abs_sub (v * s) 1
    rw [abs_mul, abs_of_pos hs, abs_one] at h1
    linarith
  choose z hz hz' using hsize
  have ho : ∀ a, |o a| ≤ 2 * B := fun a => by
    have d1 : |c.sensor a| ≤ B := hc.shift a
    have d2 := F.near_o a
    have d3 := abs_sub_abs_le_abs_sub (o a) (c.sensor a)
    linarith
  have hp : ∀ a, |p a| ≤ 9 * B := fun a => by
    have d1 := ho a
    have d2 := F.span a
    have d3 := abs_sub_abs_le_abs_sub (p a) (o a)
    linarith
  -- the length
  have hlen : 777 * (u * B) ≤ len := by
    have h1 : (1000 * (u * B)) ^ 2 ≤ (len + 223 * (u * B)) ^ 2 := hapart.trans F.upper
    have h2 := abs_le_of_sq_le (by linarith [F.len_nonneg]) h1
    rw [abs_of_pos (by linarith)] at h2
    linarith
  have hlen0 : 0 < len := by linarith
  have hspan : ∀ a, |p a - o a| ≤ 3 / 2 * len := fun a => by
    have h1 : (c.place x a - c.sensor a) ^ 2 ≤ (len + 223 * (u * B)) ^ 2 := (distSq_axis _ _ a).trans F.upper
    have h2 := abs_le_of_sq_le (by linarith [F.len_nonneg]) h1
    have h3 := abs_le.1 h2
    have h4 := abs_le.1 (F.near_o a)
    have h5 := abs_le.1 (F.near_p a)
    rw [abs_le]
    constructor <;> linarith
  have hN0 : 0 ≤ N * s := mul_nonneg (by linarith [P.ray.N_ge]) hs.le
  have hcells : ∀ a, (axisCells g.dims a : ℚ) * s + 2 * s ≤ N * s := fun a => by
    have := mul_le_mul_of_nonneg_right (P.grid.dims a) hs.le
    linarith
  unfold castRay
  refine C84_ray_defined P.rounds hsg S hv hK hKb hKM ?_ hz (fun a => by linarith [ho a]) (fun a => by linarith [hp a]) (fun a => ?_) hlen0 ?_
    hspan (fun a => ?_) hr.1 (fun r h => (hr.2 r h).1.le)
  · have hQ : 0 ≤ X / ν + 1 / 10 ^ 9 := by have := S.X_pos; positivity
    refine le_of_mul_le_mul_right ?_ hs
    calc (X / ν + 1 / 10 ^ 9) * |v| * s = (X / ν + 1 / 10 ^ 9) * (|v| * s) := by ring
      _ ≤ (X / ν + 1 / 10 ^ 9) * (11 / 10) := mul_le_mul_of_nonneg_left hvs hQ
      _ ≤ K * s := hKX
  · have h1 := abs_le.1 (hz' a)
    have h2 := abs_le.1 (ho a)
    have h3 := hcells a
    have h4 : (0 : ℚ) ≤ axisCells g.dims a * s := by positivity
    rw [abs_le]
    constructor <;> linarith
  · have h1 := mul_le_mul_of_nonneg_left hlen hν0.le
    linarith [mul_pos hν0 huB]
  · rcases hcase a with h1 | h1 | h1
    · left
      have h2 := abs_le.1 (F.near_o a)
      have h3 := abs_le.1 (hz' a)
      obtain ⟨h4, h5⟩ := h1
      have hw0 : 0 ≤ w := (abs_nonneg _).trans (hz' a)
      constructor <;> linarith
    · right; left
      obtain ⟨h2, h3⟩ := h1
      have h4 := F.near_o a
      have h5 := F.near_p a
      have h6 : |c.place x a - c.sensor a| ≤ |p a - o a| + 66 * (u * B) := by
        have k1 := abs_le.1 h4
        have k2 := abs_le.1 h5
        have k3 := abs_le.1 (le_refl |p a - o a|)
        rw [abs_le]
        constructor <;> linarith
      have h7 : 2 * ν * len ≤ |c.place x a - c.sensor a| / 2 + 424 * (u * B) := by
        rcases le_or_gt (|c.place x a - c.sensor a| / (4 * ν)) (14 * B) with h8 | h8
        · have h9 : (1 : ℚ) ^ 2 * distSq c.sensor (c.place x) ≤ (|c.place x a - c.sensor a| / (4 * ν)) ^ 2 := by
            rw [one_pow, one_mul, div_pow, sq_abs, le_div_iff₀ (by positivity)]
            linarith
          have h10 := F.lower 1 _ (by norm_num) (le_refl 1) (by positivity) h8 h9
          rw [one_mul] at h10
          have h11 := mul_le_mul_of_nonneg_left h10 (show 0 ≤ 2 * ν by linarith)
          have h12 : 2 * ν * (|c.place x a - c.sensor a| / (4 * ν) + 212 * (u * B)) =
              |c.place x a - c.sensor a| / 2 + 424 * (ν * (u * B)) := by
            field_simp
            ring
          have h13 := mul_le_mul_of_nonneg_right S.ν_le huB.le
          linarith
        · rw [lt_div_iff₀ (by linarith)] at h8
          have h9 := mul_le_mul_of_nonneg_left F.len_le (show 0 ≤ 2 * ν by linarith)
          linarith
      linarith
    · exact .inr (.inr h1)

end

/-! ### `double` -/

section
variable {sqrt : Fl → Fl} {s n B : ℚ} {g : RayGrid Fl} {K : Type}

/-- Sensor cells are defined. -/
theorem sensor_cell_defined {R : ℚ → Fl} {u η M N E : ℚ} {bits : ℕ} (P : CamPrecise R sqrt u η M s n N E B g)
    (hI : 64 * (B / s) + 8 ≤ 2 ^ (bits - 1)) (hM : 64 * (B / s) ≤ M) {c : Camera3} (hc : c.Within B) :
    (flIndex (ieee R bits) g (cpuOrigin (ieee R bits) c.cloud.tf)).isSome := by
  obtain ⟨o, ho1, ho2⟩ := sensor_near P.cam P.rounds bits hc
  rw [ho1]
  obtain ⟨hu, hs, hB, huB, -⟩ := P.pos
  have huB1 : 9000 * (u * B) ≤ B := by have := mul_le_mul_of_nonneg_right P.cam.u_le hB.le; linarith
  obtain ⟨i, hi, -⟩ := index_defined (bits := bits) P hI hM (x := o) (fun a => by
    have d1 : |c.sensor a| ≤ B := hc.shift a
    have d3 := abs_sub_abs_le_abs_sub (o a) (c.sensor a)
    have := ho2 a
    linarith)
  rw [hi]
  rfl

theorem roughScale_double {X : ℚ} (hX : 1 / 2 ^ 60 ≤ X) (hX' : X ≤ 2 ^ 100) :
    RoughScale (1 / 2 ^ 53) (1 / 2 ^ 1075) ((2 - 1 / 2 ^ 52) * 2 ^ 1023) X (9 / 10 ^ 11) := by
  have hη := one_div_pow_le (m := 200) (k := 1075) (by norm_num)
  have hM := double_max_ge
  have h1 : (10 : ℚ) ^ 13 * (1 / 2 ^ 200) ≤ 1 / 2 ^ 60 := by norm_num
  have h2 : (10 : ℚ) ^ 12 * 2 ^ 100 ≤ 2 ^ 200 := by norm_num
  have h3 : (10 : ℚ) ^ 11 / 9 ≤ 2 ^ 200 := by norm_num
  have hη0 : (0 : ℚ) ≤ 1 / 2 ^ 1075 := by positivity
  generalize (1 : ℚ) / 2 ^ 1075 = η at *
  generalize ((2 : ℚ) - 1 / 2 ^ 52) * 2 ^ 1023 = M at *
  have h4 : 10 ^ 13 * η ≤ 1 / 2 ^ 60 := (mul_le_mul_of_nonneg_left hη (by norm_num)).trans h1
  refine ⟨by norm_num, hη0, h4.trans (by norm_num), h4.trans hX, lt_of_lt_of_le (by norm_num) hX, le_refl _, by norm_num, ?_, h3.trans hM, ?_⟩
  · exact le_trans (by norm_num) hM
  · exact (mul_le_mul_of_nonneg_left hX' (by norm_num)).trans (h2.trans hM)

/-- C84, the CPU: every voxelization has a result, wherever the sensors are, if coordinates are at most `2^22` cells and no point is
measured at a sensor outside the grid (nearer than `1000 B / 2^53`). -/
theorem C84_double_has_result (hs : IeeeSqrt sqrt) (G : DoubleGrid s n B g) (hBs : B ≤ 2 ^ 22 * s)
    (hsize : ∀ a, ∃ z, g.size a = .fin z ∧ |z - axisCells g.dims a * s| ≤ s) {pct : ℚ} {t k : ℤ}
    {op : FilterOptions} (hop : FilterOptions.make (.fin pct) t k = some op) {cams : List Camera3}
    (hlen : ∀ c ∈ cams, c.points.length < 2 ^ 31) (hc : ∀ c ∈ cams, c.Within B) (hr : ∀ c ∈ cams, DoubleRange c.range)
    (hpts : ∀ c ∈ cams, DeepInGrid (doubleTol s n B) s (axisCells g.dims) c.sensor ∨
      ∀ x, some x ∈ c.points → Apart (1000 * B / 2 ^ 53) c.sensor (c.place x)) {output : VoxMap K} (hd : output.dims = g.dims) :
    ∃ output', FlVoxelizeRuns double64 sqrt g op (cams.map Camera3.cloud) output output' := by
  have hs0 : 0 < s := lt_of_lt_of_le (by norm_num) G.s_ge
  have hq : B / s ≤ 2 ^ 22 := by rwa [div_le_iff₀ hs0]
  have P := G.precise hs
  have hI : 64 * (B / s) + 8 ≤ 2 ^ (64 - 1) := by norm_num; linarith
  have hM : 64 * (B / s) ≤ (2 - 1 / 2 ^ 52) * 2 ^ 1023 := le_trans (by linarith) double_max_ge
  have hB := G.B_ge
  have hns : n * s ≤ 2 ^ 21 * s := mul_le_mul_of_nonneg_right G.n_le hs0.le
  have hns0 : 0 ≤ n * s := mul_nonneg (by linarith [G.n_ge]) hs0.le
  refine (C74_defined hop (clouds_length hlen) hd).2 ?_
  intro cl hcl
  obtain ⟨c, hcm, rfl⟩ := List.mem_map.1 hcl
  refine ⟨sensor_cell_defined (bits := 64) P hI hM (hc c hcm), ?_⟩
  intro x hx
  obtain ⟨y, hy, rfl⟩ := List.mem_map.1 hx
  cases y with
  | none => rfl
  | some y =>
    obtain ⟨o, p, len, F, e⟩ := cpuRay P 64 (hc c hcm) hy
    rw [Option.map_some]
    have e' : cpuPoint double64 sqrt g c.cloud (some fun a => Fl.fin (y a)) = _ := e
    rw [e']
    have hr' : RangeOk (1 / 2 ^ 1075) B c.range := (hr c hcm).ok G.B_le
    rcases hpts c hcm with h1 | h1
    · rw [← camTol_double] at h1
      exact ray_defined P hI hM (hc c hcm) hr' h1 F
    · refine ray_defined_anywhere (X := 9 * B + 2 * (n * s)) (ν := 9 / 10 ^ 11) (K := 2 ^ 59) (w := s) P
        (keepsSigns_saturate 53 (-1074) (by norm_num) _) (roughScale_double (by linarith) ?_) (le_refl _) ?_ (by norm_num) (by norm_num)
        (le_trans (by norm_num) double_max_ge) ?_ (le_refl _) hsize (hc c hcm) hr' F ?_ (fun a => .inr (.inr (le_refl _)))
      · have := G.s_le
        linarith
      · have hη := one_div_pow_le (m := 250) (k := 1075) (by norm_num)
        have h2 : (10 : ℚ) ^ 13 * (1 / 2 ^ 1075) ≤ 10 ^ 13 * (1 / 2 ^ 250) := mul_le_mul_of_nonneg_left hη (by norm_num)
        refine h2.trans (le_trans ?_ (show 700 * (9 / 10 ^ 11 * (1 / 2 ^ 53 * (1 / 2 ^ 60))) ≤ 700 * (9 / 10 ^ 11 * (1 / 2 ^ 53 * B)) by gcongr))
        norm_num
      · have := G.s_ge
        have h2 : (9 * B + 2 * (n * s)) / (9 / 10 ^ 11) = (9 * B + 2 * (n * s)) * (10 ^ 11 / 9) := by ring
        rw [h2]
        norm_num at *
        linarith
      · have h2 := h1 y hy
        rwa [show 1000 * (1 / 2 ^ 53 * B) = 1000 * B / 2 ^ 53 by ring]

end

/-! ### `float` -/

section
variable {sqrt : Fl → Fl} {e v n B ν : ℚ} {g : RayGrid Fl} {K : Type} {api : DeviceApi} {pct : ℚ} {t k : ℤ} {op : FilterOptions}
  {cams : List Camera3} {static output : VoxMap K}

theorem roughScale_float {X : ℚ} (hX : 1 / 2 ^ 30 ≤ X) (hX' : X ≤ 2 ^ 60) (hν : 9 / 10 ^ 11 ≤ ν) (hν1 : ν ≤ 1) :
    RoughScale (1 / 2 ^ 24) (1 / 2 ^ 150) ((2 - 1 / 2 ^ 23) * 2 ^ 127) X ν := by
  refine ⟨by norm_num, by norm_num, by norm_num, le_trans (by norm_num) hX, lt_of_lt_of_le (by norm_num) hX, hν, hν1, by norm_num, by norm_num, ?_⟩
  calc (10 : ℚ) ^ 12 * X ≤ 10 ^ 12 * 2 ^ 60 := by gcongr
    _ ≤ _ := by norm_num

/-- C84, devices: every voxelization has a result if each sensor is in the grid, or for each of its points, the point is not at the sensor
(nearer than `1000 B / 2^24`) and along each axis the sensor is between the faces of the grid or the ray is not almost parallel to them.
How near to parallel, `ν`, depends on how far away things are: `9 B + 3 n e` may be `ν 2^26` cells. -/
theorem C84_float_has_result (hs : FloatSqrt sqrt) (G : FloatGrid e v n B g) (hν : 9 / 10 ^ 11 ≤ ν) (hν1 : ν ≤ 1)
    (hBe : 9 * B + 3 * (n * e) ≤ 2 ^ 26 * (ν * e)) (hsize : ∀ a, ∃ z, g.size a = .fin z ∧ |z - axisCells g.dims a * e| ≤ n * e / 2 ^ 24)
    (hh : Helper api (cams.map (Camera3.dev floatR)))
    (hN : g.dims.total * 2 * numTrackingGrids (cams.map (Camera3.dev floatR)) < 2 ^ 31)
    (hop : FilterOptions.make (.fin pct) t k = some op) (hlen : ∀ c ∈ cams, c.points.length ≤ 2 ^ 24)
    (hc : ∀ c ∈ cams, c.Within B) (ht : ∀ c ∈ cams, c.Turns) (hr : ∀ c ∈ cams, FloatRange c.range)
    (hpts : ∀ c ∈ cams, DeepInGrid (floatTol e n B) e (axisCells g.dims) c.sensor ∨ ∀ x, some x ∈ c.points →
      Apart (1000 * B / 2 ^ 24) c.sensor (c.place x) ∧
      ∀ a, BetweenFaces (floatTol e n B) e (axisCells g.dims) a c.sensor ∨ GetsOn ν (1000 * B / 2 ^ 24) a c.sensor (c.place x))
    (hd : static.dims = g.dims) :
    ∃ output', DeviceVoxelizeRuns api float32 sqrt g op (cams.map (Camera3.dev floatR)) static output output' := by
  obtain ⟨s, hfs, hes, hsge, hsle, he, hedge, hse1, hgrid⟩ := G.edge
  obtain ⟨s', hfs', -, P⟩ := G.precise hs
  have hss : s' = s := by
    rw [hfs] at hfs'
    exact (Fl.fin.inj hfs').symm
  subst hss
  have hs0 := P.cam.ray.s_pos
  have hB := P.cam.cam.B_pos
  have hn := G.n_ge
  have hη : (1 : ℚ) / 2 ^ 150 ≤ 1 / 2 ^ 80 * e := by
    have := G.e_ge
    calc (1 : ℚ) / 2 ^ 150 ≤ 1 / 2 ^ 80 * (1 / 2 ^ 20) := by norm_num
      _ ≤ _ := by gcongr
  have hse : |s' - e| ≤ 101 / 100 * (e / 2 ^ 24) := by linarith
  have hse' := abs_le.1 hse
  have hne : 0 ≤ n * e := mul_nonneg (by linarith) he.le
  have hνe : ν * e ≤ e := mul_le_of_le_one_left he.le hν1
  have hq : B / s' ≤ 2 ^ 24 := by
    rw [div_le_iff₀ hs0]
    linarith
  have hI : 64 * (B / s') + 8 ≤ 2 ^ (32 - 1) := by norm_num; linarith
  have hM : 64 * (B / s') ≤ (2 - 1 / 2 ^ 23) * 2 ^ 127 := le_trans (show _ ≤ 64 * 2 ^ 24 by linarith) (by norm_num)
  have hcell : ∀ a, (axisCells g.dims a : ℚ) * |s' - e| ≤ 101 / 100 * (n * e / 2 ^ 24) := fun a => by
    calc (axisCells g.dims a : ℚ) * |s' - e| ≤ n * (101 / 100 * (e / 2 ^ 24)) :=
          mul_le_mul (by linarith [G.dims a]) hse (abs_nonneg _) (by linarith)
      _ = _ := by ring
  have hw : 202 / 100 * (n * e / 2 ^ 24) ≤ s' := by
    have h1 := mul_le_mul_of_nonneg_right G.n_le he.le
    linarith
  have hsize' : ∀ a, ∃ z, g.size a = .fin z ∧ |z - axisCells g.dims a * s'| ≤ 202 / 100 * (n * e / 2 ^ 24) := fun a => by
    obtain ⟨z, z1, z2⟩ := hsize a
    refine ⟨z, z1, ?_⟩
    have hm : (0 : ℚ) ≤ axisCells g.dims a := by positivity
    rw [show z - axisCells g.dims a * s' = (z - axisCells g.dims a * e) - axisCells g.dims a * (s' - e) by ring]
    refine (abs_sub _ _).trans ?_
    rw [abs_mul, abs_of_nonneg hm]
    have := hcell a
    linarith
  refine (C57_device_defined hh hN hop (devs_length hlen) hd).2 ?_
  intro cl hcl x hx
  obtain ⟨c, hcm, rfl⟩ := List.mem_map.1 hcl
  obtain ⟨y, hy, rfl⟩ := List.mem_map.1 hx
  cases y with
  | none => rfl
  | some y =>
    obtain ⟨o, p, len, F, e'⟩ := devRay P.cam 32 (hc c hcm) (ht c hcm) hy
    have e'' : kernelPoint float32 sqrt g (c.dev floatR) (some fun a => floatR (y a)) = _ := e'
    rw [Option.map_some, e'']
    have hr' := ((hr c hcm).ok G.B_le).ok P.cam.cam P.cam.rounds
    rcases hpts c hcm with h1 | h1
    · rw [← devTol_float] at h1
      exact ray_defined P.cam hI hM (conv_within (hc c hcm)) hr' (dev_sensor P h1) F
    · obtain ⟨h2, h3⟩ := h1 y hy
      have huB : 1000 * (1 / 2 ^ 24 * B) = 1000 * B / 2 ^ 24 := by ring
      have hns : n * s' ≤ 1001 / 1000 * (n * e) := by
        have := mul_le_mul_of_nonneg_left hse1 (show 0 ≤ n by linarith)
        linarith
      have hns0 : 0 ≤ n * s' := mul_nonneg (by linarith) hs0.le
      have hν0 : 0 < ν := lt_of_lt_of_le (by norm_num) hν
      refine ray_defined_anywhere (X := 9 * B + 2 * (n * s')) (ν := ν) (K := 2 ^ 27) (w := 202 / 100 * (n * e / 2 ^ 24)) P.cam
        (keepsSigns_saturate 24 (-149) (by norm_num) _) (roughScale_float ?_ ?_ hν hν1) (le_refl _) ?_ (by norm_num) (by norm_num)
        (by norm_num) ?_ hw hsize' (conv_within (hc c hcm)) hr' F ?_ (fun a => ?_)
      · have := G.B_ge; have := G.e_ge
        norm_num at *
        linarith
      · have := G.B_le; have := G.e_le
        have := mul_le_mul G.n_le G.e_le he.le (by norm_num)
        norm_num at *
        linarith
      · have hB' : 1 / 2 ^ 20 ≤ B := G.e_ge.trans G.B_ge
        refine le_trans ?_ (show 700 * (9 / 10 ^ 11 * (1 / 2 ^ 24 * (1 / 2 ^ 20))) ≤ 700 * (ν * (1 / 2 ^ 24 * B)) by gcongr)
        norm_num
      · have h4 : (9 * B + 2 * (n * s')) / ν ≤ 2 ^ 26 * e := by
          rw [div_le_iff₀ hν0]
          linarith
        have := G.e_ge
        norm_num at *
        linarith
      · rw [huB]
        exact h2
      · rcases h3 a with h4 | h4
        · left
          obtain ⟨h5, h6⟩ := h4
          have h7 := hcell a
          have h8 : |(axisCells g.dims a : ℚ) * s' - axisCells g.dims a * e| = axisCells g.dims a * |s' - e| := by
            rw [← mul_sub, abs_mul, abs_of_nonneg (show (0 : ℚ) ≤ axisCells g.dims a by positivity)]
          have h9 := abs_le.1 (h8.le.trans h7)
          have h10 : n * e ≤ n ^ 2 * e := by nlinarith
          have h11 : 33 * (1 / 2 ^ 24 * B) + 303 / 100 * (n * e / 2 ^ 24) ≤ floatTol e n B := by
            unfold floatTol
            linarith
          have h12 : 0 ≤ n * e / 2 ^ 24 := by positivity
          have h13 : (Camera3.conv floatR c).sensor a = c.sensor a := rfl
          constructor
          · rw [h13]; linarith
          · rw [h13]; linarith
        · right; left
          rw [huB]
          exact h4

end

end VGT
