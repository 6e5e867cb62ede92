import Verif.Props.FairFreeAll
import Verif.Props.FairDefinedWorld

/-!
C89 for `double` with fused operations and for `float` with fast math, and concrete cases.
-/
set_option autoImplicit false

namespace VGT
open VGT.EDT VGT.Spec VGT.Par

section
variable {R Rd : ℚ → Fl} {u η M : ℚ}

/-- A stored value that is not negative. -/
theorem fused_kept_or_inf (hR : Rounds R u η M) (hsign : KeepsSign R) (hu : 0 ≤ u) (hη : 0 ≤ η) (hM : 0 ≤ M) {x : Fused} {a : ℚ} (h : x.1 = .fin a)
    (ha : 0 ≤ a) : (∃ k, x.kept R = .fin k ∧ |k - a| ≤ u * |a| + η ∧ 0 ≤ k) ∨ x.kept R = .pinf := by
  obtain ⟨v, t⟩ := x
  dsimp only at h
  subst h
  cases t with
  | true =>
    rcases hR a with ⟨y, h1, h2⟩ | ⟨h1, -⟩ | ⟨-, h2⟩
    · exact .inl ⟨y, h1, h2, hsign _ _ ha h1⟩
    · exact .inr h1
    · linarith
  | false => exact .inl ⟨a, rfl, by rw [sub_self, abs_zero]; positivity, ha⟩

/-- What C89 assumes of the walk holds in fused arithmetic. -/
theorem fused_walk (hR : Rounds R u η M) (hsign : KeepsSign R) (hRd : Rounds Rd (3 * u) (3 * η) M) (sqrt : Fl → Fl) (bits : ℕ) (hu : 0 ≤ u)
    (hu' : 200 * u ≤ 1) (hη : 0 ≤ η) (hM : 1 ≤ M) :
    FairWalk (fusedArith R Rd bits) (fusedSqrt sqrt) Prod.fst (Fused.kept R) (3 * u) (3 * η) (M / 2) where
  half := rfl
  ofInt := fun i hi => by
    obtain ⟨z, h1, h2⟩ := rounds_fin hR (hi.trans (by linarith))
    refine ⟨z, h1, h2.trans ?_⟩
    have := mul_nonneg hu (abs_nonneg (i : ℚ))
    linarith
  inf := ⟨rfl, rfl⟩
  sum := fun x y => kept_as_is R _
  difference := fun x y => kept_as_is R _
  quotient := fun x y => kept_as_is R _
  magnitude := fun x => kept_as_is R _
  root := fun x => kept_as_is R _
  abs_inf := fun x h => by
    show Fused.kept R (Fl.absF (x.kept R), false) = _
    rw [kept_as_is]
    rcases h with h | h <;> rw [h] <;> rfl
  div_big := fun x y a b hx hy hb _ => by
    have e : ((fusedArith R Rd bits).div x y).1 = Rd (a / b) := by
      show Fl.divR Rd x.1 y.1 = _
      rw [hx, hy]
      unfold Fl.divR
      dsimp only
      rw [if_neg hb]
    rw [e]
    rcases hRd (a / b) with h | ⟨h, -⟩ | ⟨h, -⟩
    · exact .inl h
    · exact .inr (.inl h)
    · exact .inr (.inr h)
  div_zero := fun x y a hx ha hy => by
    left
    show Fl.divR Rd x.1 y.1 = _
    rw [hx, hy]
    simp [Fl.divR, Fl.div, ha]
  add_big := fun x y a b hx hy ha hb _ => by
    show (∃ z, Fl.addR R (x.kept R) y.1 = .fin z ∧ _) ∨ Fl.addR R (x.kept R) y.1 = .pinf
    rw [hy]
    rcases fused_kept_or_inf hR hsign hu hη (by linarith) hx ha with ⟨k, h1, h2, h3⟩ | h1
    · rw [h1]
      rcases hR (k + b) with ⟨z, k1, k2⟩ | ⟨k1, -⟩ | ⟨-, k2⟩
      · refine .inl ⟨z, k1, ?_⟩
        have := fused_sum hu hu' hη h2 k2
        rwa [abs_of_nonneg ha, abs_of_nonneg hb] at this
      · exact .inr k1
      · linarith
    · rw [h1]
      exact .inr rfl
  inf_add := fun x y hx hy => by
    have h1 : x.kept R = .pinf := by
      obtain ⟨v, t⟩ := x
      dsimp only at hx
      subst hx
      rfl
    show Fl.addR R (x.kept R) y.1 = .pinf
    rw [h1]
    rcases hy with hy | ⟨b, hy, -⟩ <;> rw [hy] <;> rfl
  add_inf := fun x y a hx ha hy => by
    show Fl.addR R (x.kept R) y.1 = .pinf
    rw [hy]
    rcases fused_kept_or_inf hR hsign hu hη (by linarith) hx ha with ⟨k, h1, -, -⟩ | h1 <;> rw [h1] <;> rfl

end

theorem fusedDouble_walk (sqrt : Fl → Fl) : FairWalk fusedDouble (fusedSqrt sqrt) Prod.fst (Fused.kept doubleR)
    (3 * (1 / 2 ^ 53)) (3 * (1 / 2 ^ 1075)) (((2 - 1 / 2 ^ 52) * 2 ^ 1023) / 2) := by
  have h0 : (0 : ℚ) < 1 / 2 ^ 1075 := by positivity
  have h2 : (2 : ℚ) ^ 60 ≤ 2 ^ 1023 := pow_le_pow_right₀ (by norm_num) (by norm_num)
  have hR := rounds_double
  refine fused_walk (η := 1 / 2 ^ 1075) (M := (2 - 1 / 2 ^ 52) * 2 ^ 1023) hR keepsSign_double (fun x => ?_) sqrt 64 (by norm_num) (by norm_num) h0.le ?_
  · have hx := abs_nonneg x
    rcases hR x with ⟨y, k1, k2⟩ | h | h
    · refine .inl ⟨y, k1, k2.trans ?_⟩
      generalize (1 : ℚ) / 2 ^ 1075 = η at *
      linarith
    · exact .inr (.inl h)
    · exact .inr (.inr h)
  · generalize (2 : ℚ) ^ 1023 = m at *
    linarith

theorem fastFloat_walk (sqrt : Fl → Fl) : FairWalk fastFloat (fusedSqrt sqrt) Prod.fst (Fused.kept flushR)
    (3 * (1 / 2 ^ 24)) (3 * (1 / 2 ^ 126)) (2 ^ 126 / 2) := by
  refine fused_walk (fun x => ?_) keepsSign_flush rounds_roughDiv sqrt 32 (by norm_num) (by norm_num) (by norm_num) (by norm_num)
  rcases rounds_flush x with h | ⟨h1, h2⟩ | ⟨h1, h2⟩
  · exact .inl h
  · exact .inr (.inl ⟨h1, lt_of_le_of_lt (by norm_num) h2⟩)
  · exact .inr (.inr ⟨h1, lt_of_lt_of_le h2 (by norm_num)⟩)

/-- `double`: grids with up to four million cells along each axis. -/
theorem walkRoom_double {e B N : ℚ} {d : Dims} (he : 1 / 2 ^ 20 ≤ e) (he' : e ≤ 2 ^ 100) (hB : B ≤ 2 ^ 100) (hN : 3 ≤ N) (hN' : N ≤ 2 ^ 22)
    (hd : ∀ a, (axisCells d a : ℚ) + 2 ≤ N) :
    WalkRoom (3 * (1 / 2 ^ 53)) (3 * (1 / 2 ^ 1075)) (((2 - 1 / 2 ^ 52) * 2 ^ 1023) / 2) e B N d := by
  have hη : (1 : ℚ) / 2 ^ 1075 ≤ 1 / (2 ^ 200 * 2 ^ 200) :=
    one_div_le_one_div_of_le (by positivity) (by rw [← pow_add]; exact pow_le_pow_right₀ (by norm_num) (by norm_num))
  have hη0 : (0 : ℚ) < 1 / 2 ^ 1075 := by positivity
  have hM : (2 : ℚ) ^ 200 ≤ 2 ^ 1023 := pow_le_pow_right₀ (by norm_num) (by norm_num)
  have hNN : N * N ≤ 2 ^ 22 * 2 ^ 22 := mul_le_mul hN' hN' (by linarith) (by norm_num)
  have hNe : N * e ≤ 2 ^ 22 * 2 ^ 100 := mul_le_mul hN' he' (le_trans (by norm_num) he) (by norm_num)
  have hηB : 1 / 2 ^ 1075 * B ≤ 1 / 2 ^ 1075 * (2 : ℚ) ^ 100 := mul_le_mul_of_nonneg_left hB hη0.le
  generalize (1 : ℚ) / 2 ^ 1075 = η at *
  generalize (2 : ℚ) ^ 1023 = m at *
  norm_num at he hη hM hNN hNe hN' hηB
  refine ⟨hN, hd, ?_, ?_, ?_, ?_, ?_, ?_, ?_⟩ <;> norm_num <;> linarith

/-- `float`: grids with up to two hundred cells along each axis. -/
theorem walkRoom_float {e B N : ℚ} {d : Dims} (he : 1 / 2 ^ 20 ≤ e) (he' : e ≤ 2 ^ 30) (hB : B ≤ 2 ^ 30) (hN : 3 ≤ N) (hN' : N ≤ 202)
    (hd : ∀ a, (axisCells d a : ℚ) + 2 ≤ N) :
    WalkRoom (3 * (1 / 2 ^ 24)) (3 * (1 / 2 ^ 126)) (2 ^ 126 / 2) e B N d := by
  have hNN : N * N ≤ 202 * 202 := mul_le_mul hN' hN' (by linarith) (by norm_num)
  have hNe : N * e ≤ 202 * 2 ^ 30 := mul_le_mul hN' he' (le_trans (by norm_num) he) (by norm_num)
  norm_num at he hNN hNe hB
  refine ⟨hN, hd, ?_, ?_, ?_, ?_, ?_, ?_, ?_⟩ <;> norm_num <;> linarith

section
variable {e B N : ℚ} {g : RayGrid Fused} {K : Type} {op : FilterOptions} {pct : ℚ} {t k : ℤ} {cams : List Camera3} {output output' : VoxMap K} {i : IVec}

open Classical in
/-- C89 for `double` with fused operations.
Missing for a full statement: sensors outside the grid; for them see `C89_fused_double_free_is_seen_or_short`. -/
theorem C89_fused_double_free_partial {sqrt : Fl → Fl} (hs : IeeeSqrt sqrt) (he : 1 / 2 ^ 20 ≤ e) (heB : e ≤ B) (hB : B ≤ 2 ^ 100) (hN : 3 ≤ N)
    (hN' : N ≤ 2 ^ 22) (hdim : ∀ a, (axisCells g.dims a : ℚ) + 2 ≤ N) (G : GridGiven Prod.fst (3 * (1 / 2 ^ 53)) e B g)
    (hcell : CellGiven Prod.fst (3 * (1 / 2 ^ 53)) e g) (hop : FilterOptions.make (.fin pct) t k = some op) {clouds : List (CpuCloud Fused)}
    (hlen : ∀ cl ∈ clouds, cl.points.length < 2 ^ 31) (hd : output.dims = g.dims) (h : FlVoxelizeRuns fusedDouble (fusedSqrt sqrt) g op clouds output output')
    (hcams : List.Forall₂ (fun cl c => c.Within B ∧ Given Prod.fst (Fused.kept doubleR) (3 * (1 / 2 ^ 53)) (3 * (1 / 2 ^ 1075)) B c cl.tf cl.range cl.points ∧
      RangeStored Prod.fst (Fused.kept doubleR) cl.range) clouds cams)
    (hsensor : ∀ c ∈ cams, DeepInGrid (fairTol (3 * (1 / 2 ^ 53)) B) e (axisCells g.dims) c.sensor)
    (hi : CellInGrid (axisCells g.dims) i) (hocc : (output.data (dataIndex g.dims i)).le (.fin (1 / 2)) = true) :
    (output'.data (dataIndex g.dims i) = .fin 0 → k ≤ cams.countP fun c =>
      decide (∃ x, some x ∈ c.points ∧ SeenNear (freeTol (3 * (1 / 2 ^ 53)) e B N) e c.range c.sensor (c.place x) i)) ∧
    ((∀ c ∈ cams, ∀ x, some x ∈ c.points → ¬ (NearBox (fairTol (3 * (1 / 2 ^ 53)) B) e i (c.place x) ∧
        NotBeyond (fairTol (3 * (1 / 2 ^ 53)) B) c.range c.sensor (c.place x))) →
      (k ≤ cams.countP fun c => decide (∃ x, some x ∈ c.points ∧ SeenDeep (freeTol (3 * (1 / 2 ^ 53)) e B N) e c.range c.sensor (c.place x) i)) →
      output'.data (dataIndex g.dims i) = .fin 0) := by
  have V := walkRoom_double (d := g.dims) he (heB.trans hB) hB hN hN' hdim
  have S := room_double (le_trans (by norm_num) he) heB hB
  refine ⟨C89_free_is_seen_partial (fusedDouble_accurate hs) (fusedDouble_walk sqrt) S G hcell V hop hlen hd h hcams hsensor hi hocc,
    fun hno hsee => C89_seen_is_free_partial (fusedDouble_accurate hs) (fusedDouble_walk sqrt) S G hcell V hop hlen hd h hcams hi hocc hno
      (hsee.trans (Nat.cast_le.2 (List.countP_mono_left fun c hc hp => ?_)))⟩
  rw [decide_eq_true_iff] at hp ⊢
  exact ⟨hsensor c hc, hp⟩

open Classical in
/-- C89 for `float` with fast math.
Missing for a full statement: sensors outside the grid; for them see `C89_fast_float_free_is_seen_or_short`. -/
theorem C89_fast_float_free_partial {sqrt : Fl → Fl} (hs : SqrtRounds sqrt (3 * (1 / 2 ^ 24)) (3 * (1 / 2 ^ 126))) (he : 1 / 2 ^ 20 ≤ e) (heB : e ≤ B)
    (hB : B ≤ 2 ^ 30) (hN : 3 ≤ N) (hN' : N ≤ 202) (hdim : ∀ a, (axisCells g.dims a : ℚ) + 2 ≤ N) (G : GridGiven Prod.fst (3 * (1 / 2 ^ 24)) e B g)
    (hcell : CellGiven Prod.fst (3 * (1 / 2 ^ 24)) e g) {pct : Fl} (hop : FilterOptions.make pct t k = some op) {clouds : List (DevCloud Fused)}
    {api : DeviceApi} (hh : Helper api clouds) (hG : g.dims.total * 2 * numTrackingGrids clouds < 2 ^ 31) {share : ℤ → ℤ → Fl} {static : VoxMap K}
    (hd : static.dims = g.dims) (h : FastDeviceRuns share api fastFloat (fusedSqrt sqrt) g op clouds static output output')
    (hcams : List.Forall₂ (fun cl c => c.Within B ∧ Given Prod.fst (Fused.kept flushR) (3 * (1 / 2 ^ 24)) (3 * (1 / 2 ^ 126)) B c cl.tf cl.range cl.points ∧
      RangeStored Prod.fst (Fused.kept flushR) cl.range) clouds cams)
    (hsensor : ∀ c ∈ cams, DeepInGrid (fairTol (3 * (1 / 2 ^ 24)) B) e (axisCells g.dims) c.sensor)
    (hi : CellInGrid (axisCells g.dims) i) (hocc : (static.data (dataIndex g.dims i)).le (.fin (1 / 2)) = true) :
    (output'.data (dataIndex g.dims i) = .fin 0 → k ≤ cams.countP fun c =>
      decide (∃ x, some x ∈ c.points ∧ SeenNear (freeTol (3 * (1 / 2 ^ 24)) e B N) e c.range c.sensor (c.place x) i)) ∧
    ((∀ c ∈ cams, ∀ x, some x ∈ c.points → ¬ (NearBox (fairTol (3 * (1 / 2 ^ 24)) B) e i (c.place x) ∧
        NotBeyond (fairTol (3 * (1 / 2 ^ 24)) B) c.range c.sensor (c.place x))) →
      (k ≤ cams.countP fun c => decide (∃ x, some x ∈ c.points ∧ SeenDeep (freeTol (3 * (1 / 2 ^ 24)) e B N) e c.range c.sensor (c.place x) i)) →
      output'.data (dataIndex g.dims i) = .fin 0) := by
  have V := walkRoom_float (d := g.dims) he (heB.trans hB) hB hN hN' hdim
  have S := room_float he heB hB
  refine ⟨C89_device_free_is_seen_partial (fastFloat_accurate hs) (fastFloat_walk sqrt) S G hcell V hop hh hG hd h hcams hsensor hi hocc,
    fun hno hsee => C89_device_seen_is_free_partial (fastFloat_accurate hs) (fastFloat_walk sqrt) S G hcell V hop hh hG hd h hcams hi hocc hno
      (hsee.trans (Nat.cast_le.2 (List.countP_mono_left fun c hc hp => ?_)))⟩
  rw [decide_eq_true_iff] at hp ⊢
  exact ⟨hsensor c hc, hp⟩

end

/-! ### Concrete cases -/

/-- A camera in cell (0, 1, 0) that measures a point in cell (2, 1, 0). -/
def insideF : Camera3 := lookFrom ![1 / 2, 3 / 2, 1 / 2] (.fin 10) [some ![2, 0, 0]]

/-- The camera as the CPU gets it. -/
def insideFcloud : CpuCloud Fused := ⟨fun k => (.fin (insideF.pose k), false), (.fin 10, false), [some ![(.fin 2, false), (.fin 0, false), (.fin 0, false)]]⟩

/-- The camera as a device gets it. -/
def insideFdev : DevCloud Fused := ⟨insideFcloud.tf, insideFcloud.range, insideFcloud.points⟩

theorem insideF_within : insideF.Within 8 := lookFrom_within (by intro a; fin_cases a <;> norm_num [abs_le, third]) (by
  intro x hx a
  have : x = ![2, 0, 0] := by simpa using hx
  subst this
  fin_cases a <;> norm_num [abs_le, third])

theorem insideF_place : insideF.place ![2, 0, 0] = ![5 / 2, 3 / 2, 1 / 2] := by
  unfold insideF
  rw [lookFrom_place]
  funext a
  fin_cases a <;> norm_num [third]

theorem insideF_sensor : insideF.sensor = ![1 / 2, 3 / 2, 1 / 2] := by
  unfold insideF
  rw [lookFrom_sensor]

theorem insideF_only {x : Fin 3 → ℚ} (hx : some x ∈ insideF.points) : x = ![2, 0, 0] := by simpa [insideF, lookFrom] using hx

theorem insideF_given {R : ℚ → Fl} {u η : ℚ} (hu : 0 ≤ u) (hη : 0 ≤ η) :
    Given Prod.fst (Fused.kept R) u η 8 insideF insideFcloud.tf insideFcloud.range insideFcloud.points where
  turn := fun k _ => ⟨insideF.pose k, rfl, by rw [sub_self, abs_zero]; exact hu⟩
  shift := fun a => ⟨insideF.pose (12 + a), rfl, by rw [sub_self, abs_zero]; positivity⟩
  range := .inr ⟨10, 10, rfl, rfl, by norm_num, by norm_num, by rw [sub_self, abs_zero]; positivity⟩
  points := .cons (fun a => ⟨(![2, 0, 0] : Fin 3 → ℚ) a, by fin_cases a <;> rfl, by rw [sub_self, abs_zero]; positivity⟩) .nil

theorem insideF_stored {R : ℚ → Fl} : RangeStored Prod.fst (Fused.kept R) insideFcloud.range := ⟨rfl, by simp [insideFcloud, Fused.kept]⟩

theorem insideF_deep {tol : ℚ} (h : tol ≤ 1 / 4) : DeepInGrid tol 1 (axisCells gridF.dims) insideF.sensor := by
  rw [insideF_sensor]
  intro a
  fin_cases a <;> norm_num [gridF, axisCells, third] <;> constructor <;> linarith

theorem insideF_seen {tol : ℚ} (h0 : 0 ≤ tol) (h : tol ≤ 1 / 4) : SeenDeep tol 1 insideF.range insideF.sensor (insideF.place ![2, 0, 0]) ![1, 1, 0] := by
  rw [insideF_place, insideF_sensor]
  refine ⟨1 / 2, by norm_num, by norm_num, fun a => ?_, fun r hr => ?_⟩
  · fin_cases a <;> norm_num [onSeg, third] <;> constructor <;> linarith
  · have : r = 10 := by simpa [insideF, lookFrom] using hr.symm
    subst this
    norm_num [onSeg, distSq, third]
    exact ⟨by linarith, le_trans (by linarith) (le_abs_self _)⟩

theorem insideF_clear {tol : ℚ} (h : tol ≤ 1 / 4) (x : Fin 3 → ℚ) (hx : some x ∈ insideF.points) : ¬ NearBox tol 1 ![1, 1, 0] (insideF.place x) := by
  rw [insideF_only hx, insideF_place]
  intro h1
  have := (h1 0).2
  norm_num at this
  linarith

open Classical in
theorem insideF_count {tol : ℚ} (h0 : 0 ≤ tol) (h : tol ≤ 1 / 4) : (1 : ℤ) ≤ [insideF].countP fun c =>
    decide (∃ x, some x ∈ c.points ∧ SeenDeep tol 1 c.range c.sensor (c.place x) ![1, 1, 0]) := by
  rw [List.countP_cons, if_pos (decide_eq_true ⟨![2, 0, 0], List.mem_cons_self, insideF_seen h0 h⟩)]
  norm_num

theorem gridF_cell {u : ℚ} (hu : 0 ≤ u) : CellGiven Prod.fst u 1 gridF := ⟨1, rfl, by rw [sub_self, abs_zero]; linarith⟩

theorem gridF_dims (a : Fin 3) : (axisCells gridF.dims a : ℚ) + 2 ≤ 6 := by fin_cases a <;> norm_num [gridF, axisCells]

/-- The hypotheses of `C89_free_is_seen_partial`, `C89_seen_is_free_partial` and `C89_fused_double_free_partial` are met: the camera looks through cell
(1, 1, 0), which becomes free. -/
example {sqrt : Fl → Fl} (hs : IeeeSqrt sqrt) : ∃ output', FlVoxelizeRuns fusedDouble (fusedSqrt sqrt) gridF ⟨.fin 1, 1, 1⟩ [insideFcloud] dark4 output' ∧
    output'.data (dataIndex gridF.dims ![1, 1, 0]) = .fin 0 := by
  have G : GridGiven Prod.fst (3 * (1 / 2 ^ 53)) 1 8 gridF := gridF_given (by norm_num) (by norm_num)
  have hlen : ∀ c ∈ [insideFcloud], c.points.length < 2 ^ 31 := by simp [insideFcloud]
  have hg := insideF_given (R := doubleR) (u := 3 * (1 / 2 ^ 53)) (η := 3 * (1 / 2 ^ 1075)) (by norm_num) (by positivity)
  have hsensor : ∀ c ∈ [insideF], DeepInGrid (fairTol (3 * (1 / 2 ^ 53)) 8) 1 (axisCells gridF.dims) c.sensor := fun c hc => by
    obtain rfl := List.mem_singleton.1 hc
    exact insideF_deep (by norm_num [fairTol])
  obtain ⟨out, hout⟩ := C88_fused_double_has_result hs (e := 1) (B := 8) (cams := [insideF]) (by norm_num) (by norm_num) (by norm_num) (by norm_num) G
    plain_filter hlen (.cons ⟨insideF_within, hg, rfl⟩ .nil) (fun c hc => .inl (hsensor c hc)) (output := dark4) rfl
  refine ⟨out, hout, ?_⟩
  refine (C89_fused_double_free_partial hs (N := 6) (e := 1) (B := 8) (cams := [insideF]) (by norm_num) (by norm_num) (by norm_num) (by norm_num)
    (by norm_num) gridF_dims G (gridF_cell (by norm_num)) plain_filter hlen rfl hout (.cons ⟨insideF_within, hg, insideF_stored⟩ .nil) hsensor
    (by intro a; fin_cases a <;> norm_num [gridF, axisCells, third]) (by simp [dark4, Fl.le])).2 (fun c hc x hx => ?_)
    (insideF_count (by norm_num [freeTol]) (by norm_num [freeTol]))
  obtain rfl := List.mem_singleton.1 hc
  exact fun h => insideF_clear (by norm_num [fairTol]) x hx h.1

/-- The hypotheses of `C89_device_free_is_seen_partial`, `C89_device_seen_is_free_partial` and `C89_fast_float_free_partial` are met: the same camera. -/
example {sqrt : Fl → Fl} (hs : FloatSqrt sqrt) :
    ∃ output', FastDeviceRuns roughShare (cudaApi 256) fastFloat (fusedSqrt sqrt) gridF ⟨.fin 1, 1, 1⟩ [insideFdev] dark4 dark4 output' ∧
    output'.data (dataIndex gridF.dims ![1, 1, 0]) = .fin 0 := by
  have hs' : SqrtRounds sqrt (3 * (1 / 2 ^ 24)) (3 * (1 / 2 ^ 126)) := fun q hq => by
    obtain ⟨y, k1, k2, k3⟩ := sqrtRounds_float hs q hq
    exact ⟨y, k1, k2, k3.trans (by norm_num; linarith)⟩
  have G : GridGiven Prod.fst (3 * (1 / 2 ^ 24)) 1 8 gridF := gridF_given (by norm_num) (by norm_num)
  have hh : Helper (cudaApi 256) [insideFdev] := .inr ⟨256, by norm_num, rfl, by simp [insideFdev, insideFcloud]⟩
  have hN : gridF.dims.total * 2 * numTrackingGrids [insideFdev] < 2 ^ 31 := by norm_num [gridF, numTrackingGrids, Dims.total]
  have hg : Given Prod.fst (Fused.kept flushR) (3 * (1 / 2 ^ 24)) (3 * (1 / 2 ^ 126)) 8 insideF insideFdev.tf insideFdev.range insideFdev.points :=
    insideF_given (by norm_num) (by positivity)
  have hsensor : ∀ c ∈ [insideF], DeepInGrid (fairTol (3 * (1 / 2 ^ 24)) 8) 1 (axisCells gridF.dims) c.sensor := fun c hc => by
    obtain rfl := List.mem_singleton.1 hc
    exact insideF_deep (by norm_num [fairTol])
  obtain ⟨out, hout⟩ := C88_fast_float_has_result hs' (e := 1) (B := 8) (ν := 1 / 4) (cams := [insideF]) (share := roughShare) (by norm_num) (by norm_num)
    (by norm_num) (by norm_num) (by norm_num) (by norm_num) G plain_filter hh hN (by simp [insideFdev, insideFcloud])
    (.cons ⟨insideF_within, hg, rfl⟩ .nil) (fun c hc => .inl (hsensor c hc)) (static := dark4) (output := dark4) rfl
  refine ⟨out, hout, ?_⟩
  refine (C89_fast_float_free_partial hs' (N := 6) (e := 1) (B := 8) (cams := [insideF]) (by norm_num) (by norm_num) (by norm_num) (by norm_num)
    (by norm_num) gridF_dims G (gridF_cell (by norm_num)) plain_filter hh hN rfl hout (.cons ⟨insideF_within, hg, insideF_stored⟩ .nil) hsensor
    (by intro a; fin_cases a <;> norm_num [gridF, axisCells, third]) (by simp [dark4, Fl.le])).2 (fun c hc x hx => ?_)
    (insideF_count (by norm_num [freeTol]) (by norm_num [freeTol]))
  obtain rfl := List.mem_singleton.1 hc
  exact fun h => insideF_clear (by norm_num [fairTol]) x hx h.1

end VGT
