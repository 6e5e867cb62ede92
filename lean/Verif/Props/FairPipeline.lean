import Verif.Props.FairQuery
import Verif.Props.AccurateEx

/-!
C86: answers exist; the whole way from measured points to answers without IEEE arithmetic; concrete cases.
-/
set_option autoImplicit false

namespace VGT
open VGT.EDT VGT.Spec

section
variable {F : Type} {A : QueryArith F} {val kept : F → ℝ} {u η N : ℝ} {g : SDFGrid ℝ} {fg : FlSDF F}

/-- C86, where there are answers: when the conversions to indices are defined, there is an answer at locations in the grid by `30 u N` cell edges, and
none at locations outside by more than `60 u N` cell edges. -/
theorem C86_estimate_defined (h : FairQuery A val kept u η) (hr : FairRoom u η g.s N) (hf : FairField val kept u g fg) (hint : FormulaInterp A)
    (hN : ∀ a, (axisCells g.dims a : ℝ) ≤ N) {loc : Vec4 F} (hdef : ∀ a, (A.toInt (A.mul (fg.toGrid loc a) fg.inv)).isSome = true) :
    ((∀ a, 30 * (u * N) * g.s ≤ val (fg.toGrid loc a) ∧ val (fg.toGrid loc a) < (axisCells g.dims a - 30 * (u * N)) * g.s) →
      ∃ e', flEstimate A fg loc = .value e') ∧
    ((∃ a, val (fg.toGrid loc a) < -(60 * (u * N) * g.s) ∨ (axisCells g.dims a + 60 * (u * N)) * g.s < val (fg.toGrid loc a)) →
      flEstimate A fg loc = .empty) := by
  have hs := hr.s0
  choose i hi using fun a => Option.isSome_iff_exists.1 (hdef a)
  have h65 := C65_estimate A fg loc
  refine ⟨fun hin => ?_, fun hout => ?_⟩
  · have hcell : CellInGrid (axisCells fg.dims) i := by
      rw [hf.dims]
      intro a
      obtain ⟨h1, h2⟩ := hin a
      have hk := mul_nonneg hr.k0 hs.le
      have h3 : |val (fg.toGrid loc a)| ≤ 2 * N * g.s := by
        rw [abs_of_nonneg (by linarith)]
        have := mul_le_mul_of_nonneg_right (hN a) hs.le
        nlinarith [mul_pos (lt_of_lt_of_le one_pos hr.one_le) hs]
      have h4 := abs_le.1 (h.index_near hr h3 hf.inv)
      have h5 : 30 * (u * N) ≤ val (fg.toGrid loc a) / g.s := by rwa [le_div_iff₀ hs]
      have h6 : val (fg.toGrid loc a) / g.s < axisCells g.dims a - 30 * (u * N) := by rwa [div_lt_iff₀ hs]
      have hfl := h.toInt _ _ (hi a)
      rw [← hfl, Int.floor_nonneg, Int.floor_lt]
      push_cast
      constructor <;> linarith [h4.1, h4.2]
    obtain ⟨lo, hi', -, hv⟩ := (h65.2.2 i hi).2 hcell
    exact ⟨_, hv⟩
  · by_cases hcell : CellInGrid (axisCells fg.dims) i
    · obtain ⟨lo, hi', -, hv⟩ := (h65.2.2 i hi).2 hcell
      exfalso
      obtain ⟨M, hsM, hM⟩ : ∃ M, g.s ≤ M ∧ ∀ c, CellInGrid (axisCells g.dims) c → |boundaryDist g.s (stored g.data c)| ≤ M := by
        obtain ⟨B, hB⟩ := ((Set.finite_Iio g.dims.nx).prod ((Set.finite_Iio g.dims.ny).prod (Set.finite_Iio g.dims.nz))).image
          (fun i : Idx => |boundaryDist g.s (g.data i)|) |>.bddAbove
        refine ⟨max g.s B, le_max_left _ _, fun c hc => le_max_of_le_right (hB ⟨cellIdx c, ?_, rfl⟩)⟩
        have := cellIdx_in hc
        exact this
      obtain ⟨q, hbox, hq, -⟩ := fair_estimate h hr hf hint hN hsM hM hv
      obtain ⟨a, ha⟩ := hout
      have h1 := abs_le.1 (hq a)
      have h2 := hbox a
      rcases ha with ha | ha <;> linarith [h1.1, h1.2, h2.1, h2.2]
    · exact (h65.2.2 i hi).1 hcell

end

/-! ### `double` with fused products and sums -/

theorem fair_room_double {s N : ℝ} (hs : (2 : ℝ) ^ (-100 : ℤ) ≤ s) (hs' : s ≤ 2 ^ (100 : ℤ)) (h1 : 1 ≤ N) (hN : N ≤ 2 ^ 34) :
    FairRoom (3 * 2 ^ (-53 : ℤ)) (3 * 2 ^ (-1075 : ℤ)) s N := by
  have hp : Precise (roundDouble : ℝ → ℝ) (2 ^ (-53 : ℤ)) (2 ^ (-1075 : ℤ)) s N :=
    precise_double (le_trans (zpow_le_zpow_right₀ (by norm_num) (by norm_num)) hs) h1 (hN.trans (by norm_num))
  have hs0 := hp.s0
  have e1 := hp.eta
  have e2 := hp.eta_s
  have e3 : (2 : ℝ) ^ (-1075 : ℤ) ≤ 2 ^ (-53 : ℤ) * s ^ 3 := by
    have t : ((2 : ℝ) ^ (-100 : ℤ)) ^ 3 ≤ s ^ 3 := pow_le_pow_left₀ (by positivity) hs 3
    rw [← zpow_natCast ((2 : ℝ) ^ (-100 : ℤ)), ← zpow_mul] at t
    calc (2 : ℝ) ^ (-1075 : ℤ) ≤ 2 ^ (-53 + -100 * 3 : ℤ) := zpow_le_zpow_right₀ (by norm_num) (by norm_num)
      _ = 2 ^ (-53 : ℤ) * 2 ^ (-100 * 3 : ℤ) := zpow_add₀ (by norm_num) _ _
      _ ≤ 2 ^ (-53 : ℤ) * s ^ 3 := by gcongr; exact_mod_cast t
  have e4 : (2 : ℝ) ^ (-1075 : ℤ) ≤ 2 ^ (-53 : ℤ) / s ^ 2 := by
    have t : s ^ 2 ≤ ((2 : ℝ) ^ (100 : ℤ)) ^ 2 := pow_le_pow_left₀ hs0.le hs' 2
    rw [← zpow_natCast ((2 : ℝ) ^ (100 : ℤ)), ← zpow_mul] at t
    rw [le_div_iff₀ (by positivity)]
    calc (2 : ℝ) ^ (-1075 : ℤ) * s ^ 2 ≤ 2 ^ (-1075 : ℤ) * 2 ^ (100 * 2 : ℤ) := by gcongr; exact_mod_cast t
      _ = 2 ^ (-1075 + 100 * 2 : ℤ) := (zpow_add₀ (by norm_num) _ _).symm
      _ ≤ 2 ^ (-53 : ℤ) := zpow_le_zpow_right₀ (by norm_num) (by norm_num)
  have e53 : (2 : ℝ) ^ (-53 : ℤ) = 1 / 2 ^ 53 := by rw [zpow_neg, one_div]; norm_cast
  have hsmall : 3 * 2 ^ (-53 : ℤ) * N ≤ 1 / 10 ^ 5 := by
    rw [e53]
    norm_num at hN ⊢
    linarith
  have u0 := hp.u0
  have eta0 := hp.eta0
  generalize (2 : ℝ) ^ (-1075 : ℤ) = η at *
  generalize (2 : ℝ) ^ (-53 : ℤ) = u at *
  exact ⟨by linarith, by linarith, hs0, h1, hsmall, by linarith, by linarith, by linarith, by rw [mul_div_assoc]; linarith⟩

section
variable {left : Bool} {norm : (Fin 3 → FusedReal) → FusedReal}
  {interp : (Fin 3 → FusedReal) → (Fin 3 → FusedReal) → (Bool → Bool → Bool → FusedReal) → (Fin 3 → FusedReal) → FusedReal}
  {toGrid : Vec4 FusedReal → Fin 3 → FusedReal} {toWorld rotate : (Fin 3 → FusedReal) → Fin 3 → FusedReal} {g : SDFGrid ℝ}

theorem fused_double_fair : FairQuery (fusedQuery roundDouble left norm interp) Prod.fst (FusedReal.kept roundDouble) (3 * 2 ^ (-53 : ℤ))
    (3 * 2 ^ (-1075 : ℤ)) := by
  have hp : Precise (roundDouble : ℝ → ℝ) (2 ^ (-53 : ℤ)) (2 ^ (-1075 : ℤ)) 1 1 :=
    precise_double (zpow_le_one_of_nonpos₀ (by norm_num) (by norm_num)) le_rfl (by norm_num)
  refine fusedQuery_fair hp.err hp.u0 ?_ hp.eta0 left norm interp
  rw [show (2 : ℝ) ^ (-53 : ℤ) = 1 / 2 ^ 53 by rw [zpow_neg, one_div]; norm_cast]
  norm_num

theorem inMemory_double (hs : (2 : ℝ) ^ (-100 : ℤ) ≤ g.s) (hs' : g.s ≤ 2 ^ (100 : ℤ)) :
    FairField Prod.fst (FusedReal.kept roundDouble) (3 * 2 ^ (-53 : ℤ)) g (g.inMemory roundDouble toGrid toWorld rotate) where
  dims := rfl
  size := rfl
  inv := by
    have h0 : 0 < g.s := lt_of_lt_of_le (by positivity) hs
    refine (double_inverse (le_trans (zpow_le_zpow_right₀ (by norm_num) (by norm_num)) hs)
      (hs'.trans (zpow_le_zpow_right₀ (by norm_num) (by norm_num)))).trans ?_
    refine div_le_div_of_nonneg_right ?_ h0.le
    have : (0 : ℝ) < 2 ^ (-53 : ℤ) := by positivity
    linarith
  data := fun i _ => ⟨rfl, if_neg (by decide : ¬ (false = true))⟩

/-- C86, `double` with fused products and sums, whichever operand is taken unrounded: `√3 + 3 + N/2¹⁸ + N²/2³⁴` cell edges. -/
theorem C86_clear_ball_fused {N : ℝ} {filled : Idx → Bool} {border : Bool} (hg : GeneratedBy floatSDF filled border g) (hs : (2 : ℝ) ^ (-100 : ℤ) ≤ g.s)
    (hs' : g.s ≤ 2 ^ (100 : ℤ)) (h1 : 1 ≤ N) (hN34 : N ≤ 2 ^ 34) (hN : ∀ a, (axisCells g.dims a : ℝ) ≤ N)
    (hint : interp = flTrilinear (fusedReal roundDouble left) ∨ interp = flBilinear (fusedReal roundDouble left))
    {loc : Vec4 FusedReal} {e' : FusedReal}
    (he' : flEstimate (fusedQuery roundDouble left norm interp) (g.inMemory roundDouble toGrid toWorld rotate) loc = .value e')
    {p p' : Fin 3 → ℝ} (hfr : InFrame g.pose.R g.pose.t (fun a => (toGrid loc a).1) p)
    {o : Fin 3 → ℤ} (ho : CellInGrid (axisCells g.dims) o) {x y : Vec ℝ} (hxy : InFrame g.pose.R g.pose.t x y)
    (hx : InClosedCell g.s o x) :
    (filled (cellIdx o) = true →
      FusedReal.kept roundDouble e' - (Real.sqrt 3 + 3 + N / 2 ^ 18 + N ^ 2 / 2 ^ 34) * g.s - dist3 p p' ≤ dist3 p' y) ∧
    (filled (cellIdx o) = false →
      -FusedReal.kept roundDouble e' - (Real.sqrt 3 + 3 + N / 2 ^ 18 + N ^ 2 / 2 ^ 34) * g.s - dist3 p p' ≤ dist3 p' y) := by
  have hr := fair_room_double hs hs' h1 hN34
  have key := C86_clear_ball_float hg hs (fused_double_fair (left := left) (norm := norm) (interp := interp)) hr (inMemory_double hs hs') hint hN he' hfr
    (p' := p') ho hxy hx
  have hs0 := hr.s0
  have e53 : (2 : ℝ) ^ (-53 : ℤ) = 1 / 2 ^ 53 := by rw [zpow_neg, one_div]; norm_cast
  have hm : 174120 * (3 * (2 : ℝ) ^ (-53 : ℤ)) * N ^ 2 * g.s ≤ N ^ 2 / 2 ^ 34 * g.s := by
    have : 0 ≤ N ^ 2 := sq_nonneg N
    refine mul_le_mul_of_nonneg_right ?_ hs0.le
    rw [e53]
    norm_num
    linarith
  refine key.imp (fun h hf => ?_) (fun h hf => ?_) <;> have := h hf <;> linarith

end

/-! ### From measured points to answers -/

section
variable {F : Type} {A : QueryArith F} {val kept : F → ℝ} {u η : ℝ} {K : Type} {gp : GenParams} {m : VoxMap K} {s tol N : ℚ} {Fd : SDFGrid ℝ}
  {fg : FlSDF F} {loc : Vec4 F} {e' : F} {p p' : Fin 3 → ℝ}

/-- A query of the field of a map answers `e'` in an arithmetic that is right up to `u`; `p` is the place of the computed coordinates of the location in
the frame of the grid.  `N` bounds the number of cells along an axis. -/
structure FairAnswers (A : QueryArith F) (val kept : F → ℝ) (u η : ℝ) (gp : GenParams) (m : VoxMap K) (s N : ℚ) (Fd : SDFGrid ℝ) (fg : FlSDF F)
    (loc : Vec4 F) (e' : F) (p : Fin 3 → ℝ) : Prop where
  field : FieldOf floatSDF gp m (s : ℝ) Fd
  fair : FairQuery A val kept u η
  room : FairRoom u η s N
  memory : FairField val kept u Fd fg
  formula : FormulaInterp A
  answer : flEstimate A fg loc = .value e'
  place : InFrame Fd.pose.R Fd.pose.t (fun a => val (fg.toGrid loc a)) p
  s_ge : 1 / 2 ^ 100 ≤ s
  cells : ∀ a, (axisCells m.dims a : ℚ) ≤ N

/-- Kept points are at least as far from the location as the answer says, less a margin. -/
theorem FairAnswers.clear (h : FairAnswers A val kept u η gp m s N Fd fg loc e' p) (htol : 0 ≤ tol) {y : Fin 3 → ℚ} (hk : Kept tol s m y)
    {Y : Fin 3 → ℝ} (hY : InFrame Fd.pose.R Fd.pose.t (fun a => (y a : ℝ)) Y) :
    kept e' - (Real.sqrt 3 + 3 + N / 2 ^ 18 + 174120 * u * N ^ 2) * s - dist3 p p' - 2 * tol ≤ dist3 p' Y := by
  have hs : 0 ≤ s := le_trans (by positivity) h.s_ge
  have b1 : (2 : ℝ) ^ (-100 : ℤ) ≤ Fd.s := by
    rw [h.field.edge]
    have h1 : ((1 / 2 ^ 100 : ℚ) : ℝ) ≤ s := Rat.cast_le.2 h.s_ge
    push_cast at h1
    rw [zpow_neg, ← one_div]
    exact_mod_cast h1
  have b5 : ∀ a, (axisCells Fd.dims a : ℝ) ≤ N := by
    rw [h.field.dims]
    intro a
    exact_mod_cast h.cells a
  refine kept_bound htol hs h.field.pose h.field.dims h.field.edge (p := gp) (fun o ho hf x y hxy hx => ?_) hk hY
  rw [← h.field.edge]
  exact (C86_clear_ball_float (field_generated h.field) b1 h.fair (by rw [h.field.edge]; exact h.room) h.memory h.formula b5 h.answer h.place (p' := p')
    ho hxy hx).1 hf

variable {G : Type} {B : Arith G} {sqrt : G → G} {val' kept' : G → Fl} {u' η' M' e D n : ℚ} {g : RayGrid G}
  {op : FilterOptions} {k : ℤ} {static output output' : VoxMap K} {c : Camera3} {x : Fin 3 → ℚ} {Y : Fin 3 → ℝ}

/-- C86, nothing measured is overlooked, CPU: voxelize in an arithmetic that is right up to `u'` with percentage 1 and threshold 1, extract the signed
distance field and query it in an arithmetic that is right up to `u`.  Every measured point that is truly in the grid and nearer than the range is at
least the answer away from the location, less `√3 + 3 + n/2¹⁸ + 174120 u n²` cell edges, less the error of the location, less `800 u' D`. -/
theorem C86_clearance (H : AccurateArith B sqrt val' kept' u' η' M') (S : Room u' η' M' e D) (Gg : GridGiven val' u' e D g)
    (hop : FilterOptions.make (.fin 1) 1 k = some op) {clouds : List (CpuCloud G)} (hlen : ∀ cl ∈ clouds, cl.points.length < 2 ^ 31)
    (hd : output.dims = g.dims) (hnan : NoNaN output) (h : FlVoxelizeRuns B sqrt g op clouds output output') {cl : CpuCloud G} (hcl : cl ∈ clouds)
    (hc : c.Within D) (hg : Given val' kept' u' η' D c cl.tf cl.range cl.points) (hx : some x ∈ c.points)
    (h1 : DeepInGrid (fairFarTol u' D) e (axisCells g.dims) (c.place x)) (h2 : WellWithin (fairTol u' D) c.range c.sensor (c.place x))
    (hq : FairAnswers A val kept u η gp output' e n Fd fg loc e' p)
    (hY : InFrame Fd.pose.R Fd.pose.t (fun a => (c.place x a : ℝ)) Y) :
    kept e' - (Real.sqrt 3 + 3 + n / 2 ^ 18 + 174120 * u * n ^ 2) * e - dist3 p p' - 2 * fairTol u' D ≤ dist3 p' Y :=
  hq.clear (fairTol_nonneg S) (C85_point_kept H S Gg hop hlen hd hnan h hcl hc hg hx h1 h2) hY

/-- C86, nothing measured is overlooked, devices. -/
theorem C86_device_clearance {share : ℤ → ℤ → Fl} {L : ℕ} {api : DeviceApi} (H : AccurateArith B sqrt val' kept' u' η' M') (S : Room u' η' M' e D)
    (Gg : GridGiven val' u' e D g) (hs : FairShare share L) (hL : L < 2 ^ 31) (hop : FilterOptions.make (.fin 1) 1 k = some op)
    {clouds : List (DevCloud G)} (hh : Helper api clouds) (hN : g.dims.total * 2 * numTrackingGrids clouds < 2 ^ 31)
    (hlen : ∀ cl ∈ clouds, cl.points.length ≤ L) (hd : static.dims = g.dims) (hdo : output.dims = g.dims) (hnan : NoNaN static)
    (h : FastDeviceRuns share api B sqrt g op clouds static output output') {cl : DevCloud G} (hcl : cl ∈ clouds) (hc : c.Within D)
    (hg : Given val' kept' u' η' D c cl.tf cl.range cl.points) (hx : some x ∈ c.points)
    (h1 : DeepInGrid (fairFarTol u' D) e (axisCells g.dims) (c.place x)) (h2 : WellWithin (fairTol u' D) c.range c.sensor (c.place x))
    (hq : FairAnswers A val kept u η gp output' e n Fd fg loc e' p)
    (hY : InFrame Fd.pose.R Fd.pose.t (fun a => (c.place x a : ℝ)) Y) :
    kept e' - (Real.sqrt 3 + 3 + n / 2 ^ 18 + 174120 * u * n ^ 2) * e - dist3 p p' - 2 * fairTol u' D ≤ dist3 p' Y :=
  hq.clear (fairTol_nonneg S) (C85_device_point_kept H S Gg hs hL hop hh hN hlen hd hdo hnan h hcl hc hg hx h1 h2) hY

end

/-- There is an answer at locations in the grid by `90 n / 2⁵³` cell edges. -/
theorem C86_answer_exists {left : Bool} {norm : (Fin 3 → FusedReal) → FusedReal}
    {interp : (Fin 3 → FusedReal) → (Fin 3 → FusedReal) → (Bool → Bool → Bool → FusedReal) → (Fin 3 → FusedReal) → FusedReal}
    {toGrid : Vec4 FusedReal → Fin 3 → FusedReal} {toWorld rotate : (Fin 3 → FusedReal) → Fin 3 → FusedReal} {K : Type} {gp : GenParams} {m : VoxMap K}
    {s N : ℚ} {Fd : SDFGrid ℝ} {loc : Vec4 FusedReal} {p : Fin 3 → ℝ} (hF : FieldOf floatSDF gp m (s : ℝ) Fd)
    (hint : interp = flTrilinear (fusedReal roundDouble left) ∨ interp = flBilinear (fusedReal roundDouble left))
    (hp : InFrame Fd.pose.R Fd.pose.t (fun a => (toGrid loc a).1) p) (hs : 1 / 2 ^ 100 ≤ s) (hs' : s ≤ 2 ^ 100) (hN : 1 ≤ N) (hN' : N ≤ 2 ^ 34)
    (hcells : ∀ a, (axisCells m.dims a : ℚ) ≤ N)
    (hin : ∀ a, 30 * (3 * 2 ^ (-53 : ℤ) * N) * s ≤ (toGrid loc a).1 ∧ (toGrid loc a).1 < (axisCells m.dims a - 30 * (3 * 2 ^ (-53 : ℤ) * N)) * s) :
    ∃ e', FairAnswers (fusedQuery roundDouble left norm interp) Prod.fst (FusedReal.kept roundDouble) (3 * 2 ^ (-53 : ℤ)) (3 * 2 ^ (-1075 : ℤ)) gp m s N
      Fd (Fd.inMemory roundDouble toGrid toWorld rotate) loc e' p := by
  have b1 : (2 : ℝ) ^ (-100 : ℤ) ≤ Fd.s := by
    rw [hF.edge]
    have h1 : ((1 / 2 ^ 100 : ℚ) : ℝ) ≤ s := Rat.cast_le.2 hs
    push_cast at h1
    rw [zpow_neg, ← one_div]
    exact_mod_cast h1
  have b2 : Fd.s ≤ 2 ^ (100 : ℤ) := by
    rw [hF.edge]
    exact_mod_cast hs'
  have b3 : (1 : ℝ) ≤ N := by exact_mod_cast hN
  have b4 : (N : ℝ) ≤ 2 ^ 34 := by exact_mod_cast hN'
  have b5 : ∀ a, (axisCells Fd.dims a : ℝ) ≤ N := by
    rw [hF.dims]
    intro a
    exact_mod_cast hcells a
  have hr := fair_room_double b1 b2 b3 b4
  have hm : FairField Prod.fst (FusedReal.kept roundDouble) (3 * 2 ^ (-53 : ℤ)) Fd (Fd.inMemory roundDouble toGrid toWorld rotate) := inMemory_double b1 b2
  rw [← hF.edge, ← hF.dims] at hin
  obtain ⟨e', he'⟩ := (C86_estimate_defined (fused_double_fair (left := left) (norm := norm) (interp := interp)) hr hm hint b5 (loc := loc)
    (fun a => rfl)).1 hin
  exact ⟨e', hF, fused_double_fair, by rw [← hF.edge]; exact hr, hm, hint, he', hp, hs, hcells⟩

/-! ### Concrete cases -/

/-- `corner` as numbers of the fused arithmetic. -/
noncomputable def fusedCorner : Vec4 FusedReal := ⟨fun a => (corner a, false), (1, false)⟩

theorem corner_fused {K : Type} {gp : GenParams} {m : VoxMap K} {Fd : SDFGrid ℝ} (left : Bool) (hF : FieldOf floatSDF gp m ((1 : ℚ) : ℝ) Fd) (hd : m.dims = ⟨4, 4, 4⟩)
    (hfr : ∀ x, InFrame Fd.pose.R Fd.pose.t x x) :
    ∃ e', FairAnswers (fusedQuery roundDouble left (fun _ => (0, false)) (flTrilinear (fusedReal roundDouble left))) Prod.fst (FusedReal.kept roundDouble)
      (3 * 2 ^ (-53 : ℤ)) (3 * 2 ^ (-1075 : ℤ)) gp m 1 6 Fd (Fd.inMemory roundDouble (fun l => l.v) id id) fusedCorner e' corner := by
  refine C86_answer_exists hF (.inl rfl) (hfr _) (by norm_num) (by norm_num) (by norm_num) (by norm_num)
    (by rw [hd]; intro a; fin_cases a <;> norm_num [axisCells]) ?_
  rw [hd, show (2 : ℝ) ^ (-53 : ℤ) = 1 / 2 ^ 53 by rw [zpow_neg, one_div]; norm_cast]
  intro a
  fin_cases a <;> norm_num [axisCells, fusedCorner, corner, third]

/-- The hypotheses of `C86_clearance`, `C86_clear_ball_fused` and `C86_clear_ball_float` are met: fused operations in `double`, both for the map and for
the answer. -/
example {sqrt : Fl → Fl} (hs : IeeeSqrt sqrt) (left : Bool) : ∃ (output' : VoxMap ℚ) (F : SDFGrid ℝ) (e' : FusedReal),
    FlVoxelizeRuns fusedDouble (fusedSqrt sqrt) gridF ⟨.fin 1, 1, 1⟩ [farFcloud] dark4 output' ∧
    output'.data (dataIndex gridF.dims ![2, 1, 0]) = .fin 1 ∧
    flEstimate (fusedQuery roundDouble left (fun _ => (0, false)) (flTrilinear (fusedReal roundDouble left)))
      (F.inMemory roundDouble (fun l => l.v) id id) fusedCorner = .value e' ∧
    FusedReal.kept roundDouble e' - (Real.sqrt 3 + 3 + (6 : ℚ) / 2 ^ 18 + 174120 * (3 * 2 ^ (-53 : ℤ)) * (6 : ℚ) ^ 2) * (1 : ℚ) - dist3 corner corner -
      2 * (fairTol (3 * (1 / 2 ^ 53)) 1024 : ℚ) ≤ dist3 corner (fun a => ((farF.place ![1002, 0, 0] a : ℚ) : ℝ)) := by
  obtain ⟨out, F, e0, hout, h1, hA, hfr, -⟩ := fused_case hs
  have hd : out.dims = ⟨4, 4, 4⟩ := (C74_keeps_filled hout).2.1
  obtain ⟨e', hq⟩ := corner_fused left hA.field hd hfr
  have S := room_double (e := 1) (B := 1024) (by norm_num) (by norm_num) (by norm_num)
  refine ⟨out, F, e', hout, h1, hq.answer, C86_clearance (fusedDouble_accurate hs) S (gridF_given (by norm_num) (by norm_num)) plain_filter
    (by simp [farFcloud]) rfl dark4_nonan hout (List.mem_singleton_self _) farF_within
    (farF_given (R := doubleR) (u := 3 * (1 / 2 ^ 53)) (η := 3 * (1 / 2 ^ 1075)) (by norm_num) (by positivity)) List.mem_cons_self ?_
    (farF_well (fairTol_nonneg S) (by norm_num [fairTol])) hq (hfr _)⟩
  rw [farF_place]
  exact far_grid (by norm_num [fairFarTol])

/-- The hypotheses of `C86_device_clearance` are met: `float` with fused operations, rough division and no denormal numbers on the device, fused
operations in `double` for the answer. -/
example {sqrt : Fl → Fl} (hs : FloatSqrt sqrt) (left : Bool) : ∃ (output' : VoxMap ℚ) (F : SDFGrid ℝ) (e' : FusedReal),
    FastDeviceRuns roughShare (cudaApi 256) fastFloat (fusedSqrt sqrt) gridF ⟨.fin 1, 1, 1⟩ [farFdev] dark4 dark4 output' ∧
    output'.data (dataIndex gridF.dims ![2, 1, 0]) = .fin 1 ∧
    flEstimate (fusedQuery roundDouble left (fun _ => (0, false)) (flTrilinear (fusedReal roundDouble left)))
      (F.inMemory roundDouble (fun l => l.v) id id) fusedCorner = .value e' ∧
    FusedReal.kept roundDouble e' - (Real.sqrt 3 + 3 + (6 : ℚ) / 2 ^ 18 + 174120 * (3 * 2 ^ (-53 : ℤ)) * (6 : ℚ) ^ 2) * (1 : ℚ) - dist3 corner corner -
      2 * (fairTol (3 * (1 / 2 ^ 24)) 1024 : ℚ) ≤ dist3 corner (fun a => ((farF.place ![1002, 0, 0] a : ℚ) : ℝ)) := by
  obtain ⟨out, F, e0, hout, h1, hA, hfr, -⟩ := fast_case hs
  have hd : out.dims = ⟨4, 4, 4⟩ := fast_dims hout
  obtain ⟨e', hq⟩ := corner_fused left hA.field hd hfr
  have S := room_float (e := 1) (B := 1024) (by norm_num) (by norm_num) (by norm_num)
  have H := fastFloat_accurate (sqrt := sqrt) fun q hq => by
    obtain ⟨y, k1, k2, k3⟩ := sqrtRounds_float hs q hq
    exact ⟨y, k1, k2, k3.trans (by norm_num; linarith)⟩
  have hg : Given Prod.fst (Fused.kept flushR) (3 * (1 / 2 ^ 24)) (3 * (1 / 2 ^ 126)) 1024 farF farFdev.tf farFdev.range farFdev.points :=
    farF_given (by norm_num) (by positivity)
  refine ⟨out, F, e', hout, h1, hq.answer, C86_device_clearance H S (gridF_given (by norm_num) (by norm_num)) fairShare_rough (by norm_num) plain_filter
    (.inr ⟨256, by norm_num, rfl, by simp [farFdev, farFcloud]⟩) (by norm_num [gridF, numTrackingGrids, Dims.total]) (by simp [farFdev, farFcloud]) rfl rfl
    dark4_nonan hout (List.mem_singleton_self _) farF_within hg List.mem_cons_self ?_ (farF_well (fairTol_nonneg S) (by norm_num [fairTol])) hq (hfr _)⟩
  rw [farF_place]
  exact far_grid (by norm_num [fairFarTol])

/-- A location that is far enough is returned. -/
theorem flProject_here {F : Type} {A : QueryArith F} {g : FlSDF F} {fuel : ℕ} {loc : Vec4 F} {d minDist mult : F} (h : flEstimate A g loc = .value d)
    (hd : A.le d minDist = false) (hw : A.isOne loc.w = true) : flProject A g fuel loc minDist mult = some (.value loc) := by
  unfold flProject
  have h' := h
  unfold flEstimate at h'
  cases hi : flIndexOf A g loc with
  | none => rw [hi] at h'; cases h'
  | some i =>
    rw [hi] at h'
    dsimp only at h' ⊢
    split_ifs at h' ⊢
    rw [h]
    dsimp only
    unfold flProjectLoop
    rw [hd]
    simp [flProjected, hw]

/-- The hypotheses of `C86_clear_ball_inside_float` and `C86_projection_clear_float` are met: `corner` is farther than the answer there less 1. -/
example {sqrt : Fl → Fl} (hs : IeeeSqrt sqrt) (left : Bool) (mult : FusedReal) (fuel : ℕ) : ∃ (filled : Idx → Bool) (border : Bool) (F : SDFGrid ℝ)
    (e' : FusedReal), GeneratedBy floatSDF filled border F ∧
    flEstimate (fusedQuery roundDouble left (fun _ => (0, false)) (flTrilinear (fusedReal roundDouble left)))
      (F.inMemory roundDouble (fun l => l.v) id id) fusedCorner = .value e' ∧
    flProject (fusedQuery roundDouble left (fun _ => (0, false)) (flTrilinear (fusedReal roundDouble left)))
      (F.inMemory roundDouble (fun l => l.v) id id) fuel fusedCorner (FusedReal.kept roundDouble e' - 1, false) mult = some (.value fusedCorner) ∧
    (∀ a, F.s / 2 + 60 * (3 * (2 : ℝ) ^ (-53 : ℤ) * 6) * F.s ≤ corner a ∧
      corner a ≤ ((axisCells F.dims a : ℝ) - 1 / 2) * F.s - 60 * (3 * (2 : ℝ) ^ (-53 : ℤ) * 6) * F.s) := by
  obtain ⟨out, F, e0, hout, h1, hA, hfr, -⟩ := fused_case hs
  have hd : out.dims = ⟨4, 4, 4⟩ := (C74_keeps_filled hout).2.1
  obtain ⟨e', hq⟩ := corner_fused left hA.field hd hfr
  refine ⟨_, _, F, e', field_generated hA.field, hq.answer, flProject_here hq.answer ?_ ?_, ?_⟩
  · show decide (FusedReal.kept roundDouble e' ≤ FusedReal.kept roundDouble e' - 1) = false
    simp
  · show decide (FusedReal.kept roundDouble (1, false) = 1) = true
    simp [FusedReal.kept]
  · rw [hA.field.edge, hA.field.dims, hd, show (2 : ℝ) ^ (-53 : ℤ) = 1 / 2 ^ 53 by rw [zpow_neg, one_div]; norm_cast]
    intro a
    fin_cases a <;> norm_num [axisCells, corner, third]

end VGT
