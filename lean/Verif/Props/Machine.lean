import Verif.Lemmas.QueryRoundAll
import Verif.Props.Clearance
import Verif.Props.IEEE

/-!
C68: distances in machine arithmetic from the occupancy to the answer of a query.
-/
set_option autoImplicit false

namespace VGT
open VGT.EDT VGT.Spec

/-- `g` is a field made by `ExtractSignedDistanceField` in the arithmetic `ro` from a grid whose filled cells are `filled`,
placed anywhere; all its values are finite. -/
structure GeneratedBy (ro : Rounding) (filled : Idx → Bool) (border : Bool) (g : SDFGrid ℝ) : Prop where
  pose : Orthogonal g.pose.R
  run : ∃ (gi : GridInfo) (isFilled : ZIdx → Option Bool) (oob : Rl) (out : Idx → Rl),
    GenOK ro gi ∧ gi.dims = g.dims ∧ gi.sx = g.s ∧
    (∀ i, gi.dims.In i → isFilled (toZ i) = some (filled i)) ∧ GridGenRuns ro gi isFilled border oob (some out) ∧
    ∀ i, gi.dims.In i → out i = .fin (g.data i)

theorem sqz_le_of_coords {a b : ZIdx} {N : ℝ} (h0 : |((a.1 - b.1 : ℤ) : ℝ)| ≤ N) (h1 : |((a.2.1 - b.2.1 : ℤ) : ℝ)| ≤ N)
    (h2 : |((a.2.2 - b.2.2 : ℤ) : ℝ)| ≤ N) : Real.sqrt (sqz a b) ≤ 2 * N := by
  have hN : 0 ≤ N := (abs_nonneg _).trans h0
  rw [Real.sqrt_le_left (by linarith)]
  have e : ((sqz a b : ℕ) : ℝ) = ((a.1 - b.1 : ℤ) : ℝ) ^ 2 + ((a.2.1 - b.2.1 : ℤ) : ℝ) ^ 2 + ((a.2.2 - b.2.2 : ℤ) : ℝ) ^ 2 := by
    have : ((sqz a b : ℕ) : ℤ) = (a.1 - b.1) ^ 2 + (a.2.1 - b.2.1) ^ 2 + (a.2.2 - b.2.2) ^ 2 := by
      unfold sqz
      rw [Int.natAbs_of_nonneg (by positivity)]
    exact_mod_cast congrArg (Int.cast : ℤ → ℝ) this
  rw [e]
  have s0 := sq_le_sq' (abs_le.1 h0).1 (abs_le.1 h0).2
  have s1 := sq_le_sq' (abs_le.1 h1).1 (abs_le.1 h1).2
  have s2 := sq_le_sq' (abs_le.1 h2).1 (abs_le.1 h2).2
  nlinarith [sq_nonneg N]

/-- The nearest cell of the other kind, or the nearest point outside, is not further away than the grid is long. -/
theorem targets_near {d : Dims} {border : Bool} {b : Idx → Bool} {v : Bool} {i : Idx} (hi : d.In i) {N : ℝ}
    (hN : ∀ a, (axisCells d a : ℝ) ≤ N) {n : ℕ} (hn : sqDistZ (targets d border b v) (toZ i) = n) : Real.sqrt n ≤ 2 * N := by
  obtain ⟨⟨p, hp, -⟩, hle⟩ := sqDistZ_coe.1 hn
  obtain ⟨i1, i2, i3⟩ := i
  obtain ⟨hi1, hi2, hi3⟩ := hi
  dsimp only at hi1 hi2 hi3
  have N0 : (d.nx : ℝ) ≤ N := hN 0
  have N1 : (d.ny : ℝ) ≤ N := hN 1
  have N2 : (d.nz : ℝ) ≤ N := hN 2
  have hN0 : (0 : ℝ) ≤ N := le_trans (by positivity) N0
  have go : ∀ z ∈ targets d border b v, Real.sqrt (sqz (toZ (i1, i2, i3)) z) ≤ 2 * N → Real.sqrt n ≤ 2 * N := by
    intro z hz h
    refine le_trans (Real.sqrt_le_sqrt ?_) h
    exact_mod_cast hle z hz
  have small : ∀ {x : ℤ} {m : ℕ}, -(m : ℤ) ≤ x → x ≤ m → (m : ℝ) ≤ N → |(x : ℝ)| ≤ N := by
    intro x m h1 h2 h3
    rw [abs_le]
    have h1' : -(m : ℝ) ≤ x := by exact_mod_cast h1
    have h2' : (x : ℝ) ≤ m := by exact_mod_cast h2
    constructor <;> linarith
  have zero : ∀ {x : ℤ}, x = 0 → |(x : ℝ)| ≤ N := by
    intro x hx
    rw [hx]
    simpa using hN0
  rcases hp with ⟨⟨p1, p2, p3⟩, ⟨hp1, hp2, hp3⟩, hb, rfl⟩ | ⟨hb, hout⟩
  · dsimp only at hp1 hp2 hp3
    refine go _ (.inl ⟨(p1, p2, p3), ⟨hp1, hp2, hp3⟩, hb, rfl⟩) (sqz_le_of_coords (small (m := d.nx) ?_ ?_ N0)
      (small (m := d.ny) ?_ ?_ N1) (small (m := d.nz) ?_ ?_ N2)) <;> simp only [toZ] <;> omega
  · obtain ⟨o1, o2, o3, o4⟩ := hout
    have : 1 < d.nx ∨ 1 < d.ny ∨ 1 < d.nz := by
      by_contra hc
      push Not at hc
      have e1 := o1 hc.1
      have e2 := o2 hc.2.1
      have e3 := o3 hc.2.2
      apply o4
      rw [e1, e2, e3]
      omega
    rcases this with h | h | h
    · refine go (-1, (i2 : ℤ), (i3 : ℤ)) (.inr ⟨hb, by omega, fun _ => ?_, fun _ => ?_, by dsimp only; omega⟩)
        (sqz_le_of_coords (small (m := d.nx) ?_ ?_ N0) (zero ?_) (zero ?_)) <;> simp only [toZ] <;> omega
    · refine go ((i1 : ℤ), -1, (i3 : ℤ)) (.inr ⟨hb, fun _ => ?_, by omega, fun _ => ?_, by dsimp only; omega⟩)
        (sqz_le_of_coords (zero ?_) (small (m := d.ny) ?_ ?_ N1) (zero ?_)) <;> simp only [toZ] <;> omega
    · refine go ((i1 : ℤ), (i2 : ℤ), -1) (.inr ⟨hb, fun _ => ?_, fun _ => ?_, by omega, by dsimp only; omega⟩)
        (sqz_le_of_coords (zero ?_) (zero ?_) (small (m := d.nz) ?_ ?_ N2)) <;> simp only [toZ] <;> omega

/-- The field generated in exact arithmetic from the same occupancy: its values are those of the machine up to a relative
error, and none is larger than twice the longest edge of the grid. -/
theorem GeneratedBy.exact_twin {ro : Rounding} {filled : Idx → Bool} {border : Bool} {g : SDFGrid ℝ}
    (h : GeneratedBy ro filled border g) (hr : ro.rr = roundDouble) {p : ℕ} {emin : ℤ} (hc : ro.cast = rne p emin) {v : ℝ}
    (hv : (2 : ℝ) ^ (-(p : ℤ)) = v) (hv2 : v ≤ 2 ^ (-24 : ℤ)) (hemin : emin + p ≤ -100) (hs : (2 : ℝ) ^ (-100 : ℤ) ≤ g.s)
    {N : ℝ} (hN : ∀ a, (axisCells g.dims a : ℝ) ≤ N) :
    ∃ g₀ : SDFGrid ℝ, Generated filled border g₀ ∧ g₀.dims = g.dims ∧ g₀.s = g.s ∧ g₀.pose = g.pose ∧ ∀ i, g.dims.In i →
      |g.data i - g₀.data i| ≤ (v + 2 ^ (-51 : ℤ)) * |g₀.data i| ∧ |g₀.data i| ≤ 2 * N * g.s := by
  obtain ⟨gi, isFilled, oob, out, hok, hd, hsx, hf, hrun, hout⟩ := h.run
  have hok0 : GenOK exactRounding gi :=
    ⟨exact_rq, exact_rr, exact_rr, hok.uniform, hok.res, rfl, hok.res, hok.fits⟩
  obtain ⟨r0, hrun0⟩ := gridRuns_exists hok0 isFilled border oob
  obtain ⟨out0, rfl, -, he0⟩ := gridRuns_eq hok0 hf hrun0
  obtain ⟨out', e, -, he⟩ := gridRuns_eq hok hf hrun
  cases e
  have hs0 := hok.res
  have key : ∀ i, gi.dims.In i → ∃ n : ℕ, ∃ σ : ℝ, (σ = 1 ∨ σ = -1) ∧ Real.sqrt n ≤ 2 * N ∧
      out0 i = .fin (σ * (Real.sqrt n * gi.sx)) ∧ g.data i = σ * rne p emin (roundDouble (roundDouble (Real.sqrt n) * gi.sx)) := by
    intro i hi
    have h1 := he i hi
    have h2 := he0 i hi
    rw [hout i hi, hr, hc] at h1
    have hN' : ∀ a, (axisCells gi.dims a : ℝ) ≤ N := by rw [hd]; exact hN
    cases hb : filled i with
    | true =>
      rw [hb, if_pos rfl] at h1 h2
      cases hD : sqDistZ (targets gi.dims border filled false) (toZ i) using ENat.recTopCoe with
      | top => rw [hD, scaled_top] at h1; cases h1
      | coe n =>
        rw [hD, scaled_coe] at h1 h2
        refine ⟨n, -1, .inr rfl, targets_near hi hN' hD, ?_, ?_⟩
        · rw [h2, neg_one_mul]; rfl
        · rw [neg_one_mul]; exact Rl.fin.inj h1
    | false =>
      rw [hb, if_neg (by decide)] at h1 h2
      cases hD : sqDistZ (targets gi.dims border filled true) (toZ i) using ENat.recTopCoe with
      | top => rw [hD, scaled_top] at h1; cases h1
      | coe n =>
        rw [hD, scaled_coe] at h1 h2
        refine ⟨n, 1, .inl rfl, targets_near hi hN' hD, ?_, ?_⟩
        · rw [h2, one_mul]; rfl
        · rw [one_mul]; exact Rl.fin.inj h1
  have hfin : ∀ i, gi.dims.In i → out0 i = .fin ((fun i => match out0 i with | .fin r => r | _ => 0) i) := by
    intro i hi
    obtain ⟨n, σ, _, _, h1, _⟩ := key i hi
    dsimp only
    rw [h1]
  have hgen : Generated filled border ⟨g.dims, g.s, g.pose, fun i => match out0 i with | .fin r => r | _ => 0⟩ :=
    ⟨h.pose, exactRounding, gi, isFilled, oob, out0, hok0, rfl, rfl, hd, hsx, hf, hrun0, hfin⟩
  refine ⟨_, hgen, rfl, rfl, rfl, fun i hi => ?_⟩
  have hsign := hgen.sign (i := i) hi
  rw [← hd] at hi
  obtain ⟨n, σ, hσ, hle, h1, h2⟩ := key i hi
  dsimp only at hsign ⊢
  rw [h1] at hsign ⊢
  dsimp only at hsign ⊢
  rw [← hsx] at hs hsign ⊢
  have hn : 1 ≤ n := by
    by_contra hc
    have : n = 0 := by omega
    subst this
    simp only [Nat.cast_zero, Real.sqrt_zero, zero_mul, mul_zero] at hsign
    cases hb : filled i
    · linarith [hsign.1 hb]
    · linarith [hsign.2 hb]
  have hse := scaled_error hv hv2 hemin hs hn
  have hy : 0 ≤ Real.sqrt n * gi.sx := by positivity
  have hσa : |σ| = 1 := by rcases hσ with rfl | rfl <;> simp
  rw [h2, ← mul_sub, abs_mul, abs_mul, hσa, one_mul, one_mul, abs_of_nonneg hy]
  exact ⟨hse, by
    have := mul_le_mul_of_nonneg_right hle hs0.le
    linarith⟩

/-- Changing the values by little changes the interpolated value by little. -/
theorem interp3_near {s : ℝ} (hs : 0 < s) {d : Dims} {q : Fin 3 → ℝ} (hbox : InGridBox (axisCells d) s q) {v w : ℤ → ℤ → ℤ → ℝ}
    {τ : ℝ} (h : ∀ x y z, CellInGrid (axisCells d) ![x, y, z] → |v x y z - w x y z| ≤ τ) :
    |interp3 s q d v - interp3 s q d w| ≤ 27 * τ := by
  have hfl := floor_axis hs hbox
  have key : ∀ a, ∃ b c : ℤ, (0 ≤ b ∧ b < axisCells d a) ∧ (0 ≤ c ∧ c < axisCells d a) ∧
      (-1 ≤ q a / s - ((b : ℝ) + 1 / 2) ∧ q a / s - ((b : ℝ) + 1 / 2) ≤ 2) ∧
      ∀ f, interp1 s (q a) (axisCells d a) f = lin (q a / s) b c f := by
    intro a
    obtain ⟨b, c, hg, hf⟩ := interp1_lin hs (hfl a).1 (hfl a).2
    have hb := hbox a
    refine ⟨b, c, ⟨hg.1, ?_⟩, ⟨?_, hg.2.1⟩, hg.weight (by norm_num) ?_ ?_, hf⟩
    · have := hg.2; omega
    · have := hg.1; have := hg.2; omega
    · have : 0 ≤ q a / s := div_nonneg hb.1 hs.le
      linarith
    · have : q a / s ≤ axisCells d a := by rw [div_le_iff₀ hs]; exact hb.2.le
      linarith
  obtain ⟨b0, c0, hb0, hc0, hw0, e0⟩ := key 0
  obtain ⟨b1, c1, hb1, hc1, hw1, e1⟩ := key 1
  obtain ⟨b2, c2, hb2, hc2, hw2, e2⟩ := key 2
  have hin : ∀ {x y z : ℤ}, (0 ≤ x ∧ x < axisCells d 0) → (0 ≤ y ∧ y < axisCells d 1) → (0 ≤ z ∧ z < axisCells d 2) →
      |v x y z - w x y z| ≤ τ := by
    intro x y z hx hy hz
    exact h x y z (by intro a; fin_cases a; exacts [hx, hy, hz])
  have s0 : ∀ {y z : ℤ}, (0 ≤ y ∧ y < axisCells d 1) → (0 ≤ z ∧ z < axisCells d 2) →
      |lin (q 0 / s) b0 c0 (fun x => v x y z) - lin (q 0 / s) b0 c0 (fun x => w x y z)| ≤ 3 * τ :=
    fun hy hz => lin_le hw0 (hin hb0 hy hz) (hin hc0 hy hz)
  have s1 : ∀ {z : ℤ}, (0 ≤ z ∧ z < axisCells d 2) →
      |lin (q 1 / s) b1 c1 (fun y => lin (q 0 / s) b0 c0 (fun x => v x y z)) -
        lin (q 1 / s) b1 c1 (fun y => lin (q 0 / s) b0 c0 (fun x => w x y z))| ≤ 3 * (3 * τ) :=
    fun hz => lin_le hw1 (s0 hb1 hz) (s0 hc1 hz)
  have s2 := lin_le hw2 (f := fun z => lin (q 1 / s) b1 c1 (fun y => lin (q 0 / s) b0 c0 (fun x => v x y z)))
    (g := fun z => lin (q 1 / s) b1 c1 (fun y => lin (q 0 / s) b0 c0 (fun x => w x y z))) (s1 hb2) (s1 hc2)
  have c0' : ∀ f, interp1 s (q 0) d.nx f = lin (q 0 / s) b0 c0 f := e0
  have c1' : ∀ f, interp1 s (q 1) d.ny f = lin (q 1 / s) b1 c1 f := e1
  have c2' : ∀ f, interp1 s (q 2) d.nz f = lin (q 2 / s) b2 c2 f := e2
  unfold interp3
  simp only [c0', c1', c2']
  linarith

theorem boundaryDist_near {s x y ε : ℝ} (hy : y ≠ 0) (hε : ε < 1) (h : |x - y| ≤ ε * |y|) :
    |boundaryDist s x - boundaryDist s y| ≤ ε * |y| := by
  have hay : 0 < |y| := abs_pos.2 hy
  have hlt : |x - y| < |y| := lt_of_le_of_lt h (by nlinarith)
  have h' := abs_lt.1 hlt
  unfold boundaryDist
  rcases lt_or_ge y 0 with hneg | hpos
  · rw [abs_of_neg hneg] at h'
    rw [if_neg (by linarith), if_neg (by linarith), add_sub_add_right_eq_sub]
    exact h
  · rw [abs_of_nonneg hpos] at h'
    rw [if_pos (by linarith), if_pos hpos, sub_sub_sub_cancel_right]
    exact h

theorem dist3_le_of_coords {x y : Fin 3 → ℝ} {δ : ℝ} (h : ∀ a, |x a - y a| ≤ δ) : dist3 x y ≤ 2 * δ := by
  have hδ : 0 ≤ δ := (abs_nonneg _).trans (h 0)
  unfold dist3
  rw [Real.sqrt_le_left (by linarith)]
  have s0 := sq_le_sq' (abs_le.1 (h 0)).1 (abs_le.1 (h 0)).2
  have s1 := sq_le_sq' (abs_le.1 (h 1)).1 (abs_le.1 (h 1)).2
  have s2 := sq_le_sq' (abs_le.1 (h 2)).1 (abs_le.1 (h 2)).2
  nlinarith [sq_nonneg δ]

section
variable {ro : Rounding} {filled : Idx → Bool} {border : Bool} {g : SDFGrid ℝ} {r : ℝ → ℝ} {u η N γ : ℝ} {norm : (Fin 3 → ℝ) → ℝ}
  {interp : (Fin 3 → ℝ) → (Fin 3 → ℝ) → (Bool → Bool → Bool → ℝ) → (Fin 3 → ℝ) → ℝ} {inv : ℝ}
  {toGrid : Vec4 ℝ → Fin 3 → ℝ} {toWorld rotate : (Fin 3 → ℝ) → Fin 3 → ℝ}

/-- The answer of a query, all in machine arithmetic, against the estimate of a field next to it whose values at the cell boundaries
differ by little. -/
theorem machine_estimate_near {g₀ : SDFGrid ℝ} (hpose : Orthogonal g₀.pose.R) (hd : g₀.dims = g.dims) (hs0 : g₀.s = g.s)
    {ε : ℝ} (hε1 : ε ≤ 1 / 4)
    (hbd : ∀ i, g.dims.In i → |boundaryDist g.s (g.data i) - boundaryDist g.s (g₀.data i)| ≤ ε * (2 * N * g.s))
    (hb0 : ∀ i, g.dims.In i → |boundaryDist g.s (g₀.data i)| ≤ 2 * N * g.s)
    (h : Precise r u η g.s N) (hacc : Accurate interp r u g.s N γ) (hγ : 0 ≤ γ)
    (hN : ∀ a, (axisCells g.dims a : ℝ) ≤ N) (hinv : |inv - 1 / g.s| ≤ 2 * u / g.s) {loc : Vec4 ℝ} {e' : ℝ}
    (he' : flEstimate (roundedQuery r norm interp) (g.computed inv toGrid toWorld rotate) loc = .value e') :
    ∃ (q' p' : Fin 3 → ℝ) (e : ℝ), InGridBox (axisCells g.dims) g.s q' ∧ (∀ a, |q' a - toGrid loc a| ≤ 16 * (u * N) * g.s) ∧
      InFrame g₀.pose.R g₀.pose.t q' p' ∧ g₀.estimate (point4 p') = some (some e) ∧
      |e' - e| ≤ (3 * (3780 * (u * N) + 101 / 100 * γ) + 54 * ε) * (N * g.s) := by
  have hspos := h.s0
  have hNs : g.s ≤ N * g.s := by nlinarith [h.one_le]
  have hM : ∀ c, CellInGrid (axisCells g.dims) c → |boundaryDist g.s (stored g.data c)| ≤ 3 * (N * g.s) := by
    intro c hcell
    have hi := cellIdx_in hcell
    have h1 := hbd _ hi
    have h2 := hb0 _ hi
    have h3 := abs_add_le (boundaryDist g.s (g.data (cellIdx c)) - boundaryDist g.s (g₀.data (cellIdx c))) (boundaryDist g.s (g₀.data (cellIdx c)))
    rw [sub_add_cancel] at h3
    have h4 : ε * (2 * N * g.s) ≤ 1 / 4 * (2 * N * g.s) := mul_le_mul_of_nonneg_right hε1 (by linarith)
    have h5 : |boundaryDist g.s (g.data (cellIdx c))| ≤ 3 * (N * g.s) := by linarith
    exact h5
  obtain ⟨q', hbox, hq', hacc'⟩ := estimate_accuracy_all h hacc hγ hN hinv (M := 3 * (N * g.s)) (by linarith) hM he'
  obtain ⟨p', hp'⟩ : ∃ p' : Fin 3 → ℝ, InFrame g₀.pose.R g₀.pose.t q' p' := ⟨fun a => _, fun a => rfl⟩
  refine ⟨q', p', interp3 g.s q' g.dims g₀.cval, hbox, hq', hp', ?_, ?_⟩
  · have := estimate_in (hs0 ▸ hspos) hpose hp' (by rw [hd, hs0]; exact hbox)
    rw [hs0, hd] at this
    exact this
  · have hi := interp3_near hspos hbox (v := g.cval) (w := g₀.cval) (τ := ε * (2 * N * g.s)) (by
      intro x y z hcell
      have := hbd _ (cellIdx_in hcell)
      rw [cval_boundaryDist, cval_boundaryDist, hs0]
      exact this)
    have ht := abs_sub_le e' (interp3 g.s q' g.dims g.cval) (interp3 g.s q' g.dims g₀.cval)
    have ha : |e' - interp3 g.s q' g.dims g.cval| ≤ (3780 * (u * N) + 101 / 100 * γ) * (3 * (N * g.s)) := hacc'
    linarith

/-- The answer of a query, all in machine arithmetic, against the estimate of an exactly generated field next to it whose values differ
by a relative error `ε`. -/
theorem machine_estimate_twin {g₀ : SDFGrid ℝ} (hg0 : Generated filled border g₀) (hd : g₀.dims = g.dims) (hs0 : g₀.s = g.s)
    {ε : ℝ} (hε0 : 0 ≤ ε) (hε1 : ε ≤ 1 / 4)
    (hnear : ∀ i, g.dims.In i → |g.data i - g₀.data i| ≤ ε * |g₀.data i| ∧ |g₀.data i| ≤ 2 * N * g.s)
    (h : Precise r u η g.s N) (hacc : Accurate interp r u g.s N γ) (hγ : 0 ≤ γ)
    (hN : ∀ a, (axisCells g.dims a : ℝ) ≤ N) (hinv : |inv - 1 / g.s| ≤ 2 * u / g.s) {loc : Vec4 ℝ} {e' : ℝ}
    (he' : flEstimate (roundedQuery r norm interp) (g.computed inv toGrid toWorld rotate) loc = .value e') :
    ∃ (q' p' : Fin 3 → ℝ) (e : ℝ), InGridBox (axisCells g.dims) g.s q' ∧ (∀ a, |q' a - toGrid loc a| ≤ 16 * (u * N) * g.s) ∧
      InFrame g₀.pose.R g₀.pose.t q' p' ∧ g₀.estimate (point4 p') = some (some e) ∧
      |e' - e| ≤ (3 * (3780 * (u * N) + 101 / 100 * γ) + 54 * ε) * (N * g.s) := by
  have hspos := h.s0
  have hNs : g.s ≤ N * g.s := by nlinarith [h.one_le]
  have hbd : ∀ i, g.dims.In i → |boundaryDist g.s (g.data i) - boundaryDist g.s (g₀.data i)| ≤ ε * (2 * N * g.s) := by
    intro i hi
    obtain ⟨h1, h2⟩ := hnear i hi
    have hne : g₀.data i ≠ 0 := by
      have := hg0.sign (i := i) (by rw [hd]; exact hi)
      rw [hs0] at this
      cases hb : filled i
      · have := this.1 hb; intro h0; linarith
      · have := this.2 hb; intro h0; linarith
    exact (boundaryDist_near hne (by linarith) h1).trans (mul_le_mul_of_nonneg_left h2 hε0)
  have hb0 : ∀ i, g.dims.In i → |boundaryDist g.s (g₀.data i)| ≤ 2 * N * g.s := by
    intro i hi
    have h2 := abs_le.1 (hnear i hi).2
    have hsg := hg0.sign (i := i) (by rw [hd]; exact hi)
    rw [hs0] at hsg
    unfold boundaryDist
    cases hb : filled i
    · have h3 := hsg.1 hb
      rw [if_pos (by linarith), abs_le]
      constructor <;> linarith
    · have h3 := hsg.2 hb
      rw [if_neg (by linarith), abs_le]
      constructor <;> linarith
  exact machine_estimate_near hg0.pose hd hs0 hε1 hbd hb0 h hacc hγ hN hinv he'

/-- The answer of a query, all in machine arithmetic, against the estimate of the exactly generated field next to it. -/
theorem machine_estimate (hg : GeneratedBy ro filled border g) (hr : ro.rr = roundDouble) {k : ℕ} {emin : ℤ}
    (hc : ro.cast = rne k emin) {v : ℝ} (hv : (2 : ℝ) ^ (-(k : ℤ)) = v) (hv2 : v ≤ 2 ^ (-24 : ℤ)) (hemin : emin + k ≤ -100)
    (hs : (2 : ℝ) ^ (-100 : ℤ) ≤ g.s) (h : Precise r u η g.s N) (hacc : Accurate interp r u g.s N γ) (hγ : 0 ≤ γ)
    (hN : ∀ a, (axisCells g.dims a : ℝ) ≤ N) (hinv : |inv - 1 / g.s| ≤ 2 * u / g.s) {loc : Vec4 ℝ} {e' : ℝ}
    (he' : flEstimate (roundedQuery r norm interp) (g.computed inv toGrid toWorld rotate) loc = .value e') :
    ∃ (g₀ : SDFGrid ℝ) (q' p' : Fin 3 → ℝ) (e : ℝ), Generated filled border g₀ ∧ g₀.dims = g.dims ∧ g₀.s = g.s ∧
      g₀.pose = g.pose ∧ InGridBox (axisCells g.dims) g.s q' ∧ (∀ a, |q' a - toGrid loc a| ≤ 16 * (u * N) * g.s) ∧
      InFrame g₀.pose.R g₀.pose.t q' p' ∧ g₀.estimate (point4 p') = some (some e) ∧
      |e' - e| ≤ (3 * (3780 * (u * N) + 101 / 100 * γ) + 54 * (v + 2 ^ (-51 : ℤ))) * (N * g.s) := by
  obtain ⟨g₀, hg0, hd, hs0, hP, hnear⟩ := hg.exact_twin hr hc hv hv2 hemin hs hN
  have hvpos : 0 < v := by rw [← hv]; positivity
  obtain ⟨q', p', e, h1, h2, h3, h4, h5⟩ := machine_estimate_twin hg0 hd hs0 (ε := v + 2 ^ (-51 : ℤ)) (by positivity)
    (by norm_num at hv2 ⊢; linarith) hnear h hacc hγ hN hinv he'
  exact ⟨g₀, q', p', e, hg0, hd, hs0, hP, h1, h2, h3, h4, h5⟩

/-- C68, for any precise enough arithmetic of queries. -/
theorem machine_clear_ball (hg : GeneratedBy ro filled border g) (hr : ro.rr = roundDouble) {k : ℕ} {emin : ℤ}
    (hc : ro.cast = rne k emin) {v : ℝ} (hv : (2 : ℝ) ^ (-(k : ℤ)) = v) (hv2 : v ≤ 2 ^ (-24 : ℤ)) (hemin : emin + k ≤ -100)
    (hs : (2 : ℝ) ^ (-100 : ℤ) ≤ g.s) (h : Precise r u η g.s N) (hacc : Accurate interp r u g.s N γ) (hγ : 0 ≤ γ)
    (hN : ∀ a, (axisCells g.dims a : ℝ) ≤ N) (hinv : |inv - 1 / g.s| ≤ 2 * u / g.s) {loc : Vec4 ℝ} {e' : ℝ}
    (he' : flEstimate (roundedQuery r norm interp) (g.computed inv toGrid toWorld rotate) loc = .value e') {p p' : Fin 3 → ℝ}
    (hfr : InFrame g.pose.R g.pose.t (toGrid loc) p)
    {o : Fin 3 → ℤ} (ho : CellInGrid (axisCells g.dims) o) {x y : Vec ℝ} (hxy : InFrame g.pose.R g.pose.t x y)
    (hx : InClosedCell g.s o x) :
    (filled (cellIdx o) = true → e' - (Real.sqrt 3 + 3) * g.s -
      (3 * (3780 * (u * N) + 101 / 100 * γ) + 54 * (v + 2 ^ (-51 : ℤ))) * (N * g.s) - 32 * (u * N) * g.s - dist3 p p' ≤ dist3 p' y) ∧
    (filled (cellIdx o) = false → -e' - (Real.sqrt 3 + 3) * g.s -
      (3 * (3780 * (u * N) + 101 / 100 * γ) + 54 * (v + 2 ^ (-51 : ℤ))) * (N * g.s) - 32 * (u * N) * g.s - dist3 p p' ≤ dist3 p' y) := by
  obtain ⟨g₀, q', p₀, e, hg0, hd, hs0, hP, hbox, hq', hp₀, he, hb⟩ :=
    machine_estimate hg hr hc hv hv2 hemin hs h hacc hγ hN hinv he'
  have hball := C58_clear_ball_everywhere hg0 hp₀ he (o := o) (x := x) (y := y) (by rw [hd]; exact ho) (by rw [hP]; exact hxy)
    (by rw [hs0]; exact hx)
  rw [hs0] at hball
  have h1 : dist3 p₀ p ≤ 2 * (16 * (u * N) * g.s) := by
    rw [dist3_frame hg0.pose hp₀ (by rw [hP]; exact hfr)]
    exact dist3_le_of_coords hq'
  have t1 := dist3_triangle p₀ p y
  have t2 := dist3_triangle p p' y
  have hb := abs_le.1 hb
  constructor <;> intro hfo
  · have := hball.1 hfo; linarith
  · have := hball.2 hfo; linarith

/-- The same between the outermost cell centres. -/
theorem machine_clear_ball_inside (hg : GeneratedBy ro filled border g) (hr : ro.rr = roundDouble) {k : ℕ} {emin : ℤ}
    (hc : ro.cast = rne k emin) {v : ℝ} (hv : (2 : ℝ) ^ (-(k : ℤ)) = v) (hv2 : v ≤ 2 ^ (-24 : ℤ)) (hemin : emin + k ≤ -100)
    (hs : (2 : ℝ) ^ (-100 : ℤ) ≤ g.s) (h : Precise r u η g.s N) (hacc : Accurate interp r u g.s N γ) (hγ : 0 ≤ γ)
    (hN : ∀ a, (axisCells g.dims a : ℝ) ≤ N) (hinv : |inv - 1 / g.s| ≤ 2 * u / g.s) {loc : Vec4 ℝ} {e' : ℝ}
    (he' : flEstimate (roundedQuery r norm interp) (g.computed inv toGrid toWorld rotate) loc = .value e') {p p' : Fin 3 → ℝ}
    (hfr : InFrame g.pose.R g.pose.t (toGrid loc) p)
    (hmid : ∀ a, axisCells g.dims a = 1 ∨ (g.s / 2 + 16 * (u * N) * g.s ≤ toGrid loc a ∧
      toGrid loc a ≤ ((axisCells g.dims a : ℝ) - 1 / 2) * g.s - 16 * (u * N) * g.s))
    {o : Fin 3 → ℤ} (ho : CellInGrid (axisCells g.dims) o) {x y : Vec ℝ} (hxy : InFrame g.pose.R g.pose.t x y)
    (hx : InClosedCell g.s o x) :
    (filled (cellIdx o) = true → e' - (Real.sqrt 3 - 1 / 2) * g.s -
      (3 * (3780 * (u * N) + 101 / 100 * γ) + 54 * (v + 2 ^ (-51 : ℤ))) * (N * g.s) - 32 * (u * N) * g.s - dist3 p p' ≤ dist3 p' y) ∧
    (filled (cellIdx o) = false → -e' - (Real.sqrt 3 - 1 / 2) * g.s -
      (3 * (3780 * (u * N) + 101 / 100 * γ) + 54 * (v + 2 ^ (-51 : ℤ))) * (N * g.s) - 32 * (u * N) * g.s - dist3 p p' ≤ dist3 p' y) := by
  obtain ⟨g₀, q', p₀, e, hg0, hd, hs0, hP, hbox, hq', hp₀, he, hb⟩ :=
    machine_estimate hg hr hc hv hv2 hemin hs h hacc hγ hN hinv he'
  have hbc : BetweenCentres (axisCells g₀.dims) g₀.s q' := by
    rw [hd, hs0]
    intro a
    have hqa := abs_le.1 (hq' a)
    exact (hmid a).imp id fun hm => ⟨by linarith [hm.1], by linarith [hm.2]⟩
  have hball := C58_clear_ball hg0 hp₀ hbc he (o := o) (x := x) (y := y) (by rw [hd]; exact ho) (by rw [hP]; exact hxy)
    (by rw [hs0]; exact hx)
  rw [hs0] at hball
  have h1 : dist3 p₀ p ≤ 2 * (16 * (u * N) * g.s) := by
    rw [dist3_frame hg0.pose hp₀ (by rw [hP]; exact hfr)]
    exact dist3_le_of_coords hq'
  have t1 := dist3_triangle p₀ p y
  have t2 := dist3_triangle p p' y
  have hb := abs_le.1 hb
  constructor <;> intro hfo
  · have := hball.1 hfo; linarith
  · have := hball.2 hfo; linarith

/-- Both modelled interpolation formulas, in binary64. -/
def DoubleInterpolation (interp : (Fin 3 → ℝ) → (Fin 3 → ℝ) → (Bool → Bool → Bool → ℝ) → (Fin 3 → ℝ) → ℝ) : Prop :=
  interp = flTrilinear (roundedArith roundDouble) ∨ interp = flBilinear (roundedArith roundDouble)

theorem DoubleInterpolation.accurate (hint : DoubleInterpolation interp) {s : ℝ} (hs : (2 : ℝ) ^ (-100 : ℤ) ≤ s) (hs' : s ≤ 2 ^ (100 : ℤ))
    (h1 : 1 ≤ N) (hN : N ≤ 2 ^ 43) : Accurate interp roundDouble (2 ^ (-53 : ℤ)) s N (8000 * (2 ^ (-53 : ℤ) * N)) := by
  have hp : Precise (roundDouble : ℝ → ℝ) (2 ^ (-53 : ℤ)) (2 ^ (-1075 : ℤ)) s N :=
    precise_double (le_trans (zpow_le_zpow_right₀ (by norm_num) (by norm_num)) hs) h1 hN
  have hs0 := hp.s0
  rcases hint with rfl | rfl
  · have := hp.accurate_trilinear
    intro j c q w v V hj hc hq hw hV hv
    refine (this j c q w v V hj hc hq hw hV hv).trans ?_
    have h2 : 0 ≤ 2 ^ (-53 : ℤ) * N * V := mul_nonneg hp.k0 (hp.s0.le.trans hV)
    linarith
  · refine hp.accurate_bilinear ?_ ?_
    · have t : ((2 : ℝ) ^ (-100 : ℤ)) ^ 3 ≤ s ^ 3 := pow_le_pow_left₀ (by positivity) hs 3
      rw [← zpow_natCast ((2 : ℝ) ^ (-100 : ℤ)), ← zpow_mul] at t
      calc (2 : ℝ) ^ (-1075 : ℤ) ≤ 2 ^ (-53 + -100 * 3 : ℤ) := zpow_le_zpow_right₀ (by norm_num) (by norm_num)
        _ = 2 ^ (-53 : ℤ) * 2 ^ (-100 * 3 : ℤ) := zpow_add₀ (by norm_num) _ _
        _ ≤ 2 ^ (-53 : ℤ) * s ^ 3 := by gcongr; exact_mod_cast t
    · have t : s ^ 2 ≤ ((2 : ℝ) ^ (100 : ℤ)) ^ 2 := pow_le_pow_left₀ hs0.le hs' 2
      rw [← zpow_natCast ((2 : ℝ) ^ (100 : ℤ)), ← zpow_mul] at t
      rw [le_div_iff₀ (by positivity)]
      calc (2 : ℝ) ^ (-1075 : ℤ) * s ^ 2 ≤ 2 ^ (-1075 : ℤ) * 2 ^ (100 * 2 : ℤ) := by gcongr; exact_mod_cast t
        _ = 2 ^ (-1075 + 100 * 2 : ℤ) := (zpow_add₀ (by norm_num) _ _).symm
        _ ≤ 2 ^ (-53 : ℤ) := zpow_le_zpow_right₀ (by norm_num) (by norm_num)

/-- The rounding terms of `machine_clear_ball` in cell edges. -/
theorem machine_margin {s v c : ℝ} (hs : 0 ≤ s) (h1 : 1 ≤ N) (hv : 54 * (v + 2 ^ (-51 : ℤ)) ≤ c) :
    (3 * (3780 * (2 ^ (-53 : ℤ) * N) + 101 / 100 * (8000 * (2 ^ (-53 : ℤ) * N))) + 54 * (v + 2 ^ (-51 : ℤ))) * (N * s) +
      32 * (2 ^ (-53 : ℤ) * N) * s ≤ (N * c + N ^ 2 / 2 ^ 37) * s := by
  have e53 : (2 : ℝ) ^ (-53 : ℤ) = 1 / 2 ^ 53 := by rw [zpow_neg, one_div]; norm_cast
  rw [e53]
  have hNs : 0 ≤ N * s := mul_nonneg (by linarith) hs
  have h2 := mul_le_mul_of_nonneg_right hv hNs
  have h3 : N * s ≤ N * (N * s) := by nlinarith
  have h4 : 0 ≤ N * (N * s) := by positivity
  have e : (3 * (3780 * (1 / 2 ^ 53 * N) + 101 / 100 * (8000 * (1 / 2 ^ 53 * N))) + 54 * (v + 2 ^ (-51 : ℤ))) * (N * s) +
      32 * (1 / 2 ^ 53 * N) * s = (35580 / 2 ^ 53) * (N * (N * s)) + 54 * (v + 2 ^ (-51 : ℤ)) * (N * s) + (32 / 2 ^ 53) * (N * s) := by ring
  have e2 : (N * c + N ^ 2 / 2 ^ 37) * s = c * (N * s) + (65536 / 2 ^ 53) * (N * (N * s)) := by ring
  rw [e, e2]
  norm_num at *
  linarith

/-- C68. `SignedDistanceField<float>`: occupancy to distance field in binary64 with binary32 storage, query in binary64 with
either interpolation formula. Let `e'` be the computed estimate at a location `p'`, and `p` the place of its computed grid-frame
coordinates. No point of a filled cell is nearer to `p'` than `e'`, less `√3 + 3 + N/2¹⁸ + N²/2³⁷` cell edges, less `dist3 p p'`. No point
of a free cell is nearer than `-e'` less the same. `N` bounds the cells along an axis. -/
theorem C68_clear_ball_float (hg : GeneratedBy floatSDF filled border g) (hs : (2 : ℝ) ^ (-100 : ℤ) ≤ g.s) (hs' : g.s ≤ 2 ^ (100 : ℤ))
    (h1 : 1 ≤ N) (hN43 : N ≤ 2 ^ 43) (hN : ∀ a, (axisCells g.dims a : ℝ) ≤ N) (hint : DoubleInterpolation interp)
    {loc : Vec4 ℝ} {e' : ℝ} (he' : flEstimate (roundedQuery roundDouble norm interp)
      (g.computed (roundDouble (1 / g.s)) toGrid toWorld rotate) loc = .value e')
    {p p' : Fin 3 → ℝ} (hfr : InFrame g.pose.R g.pose.t (toGrid loc) p)
    {o : Fin 3 → ℤ} (ho : CellInGrid (axisCells g.dims) o) {x y : Vec ℝ} (hxy : InFrame g.pose.R g.pose.t x y)
    (hx : InClosedCell g.s o x) :
    (filled (cellIdx o) = true → e' - (Real.sqrt 3 + 3 + N / 2 ^ 18 + N ^ 2 / 2 ^ 37) * g.s - dist3 p p' ≤ dist3 p' y) ∧
    (filled (cellIdx o) = false → -e' - (Real.sqrt 3 + 3 + N / 2 ^ 18 + N ^ 2 / 2 ^ 37) * g.s - dist3 p p' ≤ dist3 p' y) := by
  have hsb : (2 : ℝ) ^ (-1022 : ℤ) ≤ g.s := le_trans (zpow_le_zpow_right₀ (by norm_num) (by norm_num)) hs
  have hsb' : g.s ≤ (2 : ℝ) ^ (1022 : ℤ) := hs'.trans (zpow_le_zpow_right₀ (by norm_num) (by norm_num))
  have hp : Precise (roundDouble : ℝ → ℝ) (2 ^ (-53 : ℤ)) (2 ^ (-1075 : ℤ)) g.s N := precise_double hsb h1 hN43
  have key := machine_clear_ball hg rfl (k := 24) (emin := -149) rfl rfl (by norm_num) (by norm_num) hs hp
    (hint.accurate hs hs' h1 hN43) (by have := hp.k0; linarith) hN (double_inverse hsb hsb') he' hfr (p' := p') ho hxy hx
  have hm := machine_margin (v := 2 ^ (-((24 : ℕ) : ℤ))) (c := 1 / 2 ^ 18) hp.s0.le h1 (by norm_num)
  refine key.imp (fun h hf => ?_) (fun h hf => ?_) <;> have := h hf <;> linarith

/-- C68. Away from the outer half of the outer cells the margin is `√3 - 1/2 + N/2¹⁸ + N²/2³⁷` cell edges. -/
theorem C68_clear_ball_inside_float (hg : GeneratedBy floatSDF filled border g) (hs : (2 : ℝ) ^ (-100 : ℤ) ≤ g.s) (hs' : g.s ≤ 2 ^ (100 : ℤ))
    (h1 : 1 ≤ N) (hN43 : N ≤ 2 ^ 43) (hN : ∀ a, (axisCells g.dims a : ℝ) ≤ N) (hint : DoubleInterpolation interp)
    {loc : Vec4 ℝ} {e' : ℝ} (he' : flEstimate (roundedQuery roundDouble norm interp)
      (g.computed (roundDouble (1 / g.s)) toGrid toWorld rotate) loc = .value e')
    {p p' : Fin 3 → ℝ} (hfr : InFrame g.pose.R g.pose.t (toGrid loc) p)
    (hmid : ∀ a, axisCells g.dims a = 1 ∨ (g.s / 2 + 16 * (2 ^ (-53 : ℤ) * N) * g.s ≤ toGrid loc a ∧
      toGrid loc a ≤ ((axisCells g.dims a : ℝ) - 1 / 2) * g.s - 16 * (2 ^ (-53 : ℤ) * N) * g.s))
    {o : Fin 3 → ℤ} (ho : CellInGrid (axisCells g.dims) o) {x y : Vec ℝ} (hxy : InFrame g.pose.R g.pose.t x y)
    (hx : InClosedCell g.s o x) :
    (filled (cellIdx o) = true → e' - (Real.sqrt 3 - 1 / 2 + N / 2 ^ 18 + N ^ 2 / 2 ^ 37) * g.s - dist3 p p' ≤ dist3 p' y) ∧
    (filled (cellIdx o) = false → -e' - (Real.sqrt 3 - 1 / 2 + N / 2 ^ 18 + N ^ 2 / 2 ^ 37) * g.s - dist3 p p' ≤ dist3 p' y) := by
  have hsb : (2 : ℝ) ^ (-1022 : ℤ) ≤ g.s := le_trans (zpow_le_zpow_right₀ (by norm_num) (by norm_num)) hs
  have hsb' : g.s ≤ (2 : ℝ) ^ (1022 : ℤ) := hs'.trans (zpow_le_zpow_right₀ (by norm_num) (by norm_num))
  have hp : Precise (roundDouble : ℝ → ℝ) (2 ^ (-53 : ℤ)) (2 ^ (-1075 : ℤ)) g.s N := precise_double hsb h1 hN43
  have key := machine_clear_ball_inside hg rfl (k := 24) (emin := -149) rfl rfl (by norm_num) (by norm_num) hs hp
    (hint.accurate hs hs' h1 hN43) (by have := hp.k0; linarith) hN (double_inverse hsb hsb') he' hfr hmid (p' := p') ho hxy hx
  have hm := machine_margin (v := 2 ^ (-((24 : ℕ) : ℤ))) (c := 1 / 2 ^ 18) hp.s0.le h1 (by norm_num)
  refine key.imp (fun h hf => ?_) (fun h hf => ?_) <;> have := h hf <;> linarith

/-- C68. `SignedDistanceField<double>`: `√3 + 3 + N/2⁴⁴ + N²/2³⁷` cell edges. -/
theorem C68_clear_ball_double (hg : GeneratedBy doubleSDF filled border g) (hs : (2 : ℝ) ^ (-100 : ℤ) ≤ g.s) (hs' : g.s ≤ 2 ^ (100 : ℤ))
    (h1 : 1 ≤ N) (hN43 : N ≤ 2 ^ 43) (hN : ∀ a, (axisCells g.dims a : ℝ) ≤ N) (hint : DoubleInterpolation interp)
    {loc : Vec4 ℝ} {e' : ℝ} (he' : flEstimate (roundedQuery roundDouble norm interp)
      (g.computed (roundDouble (1 / g.s)) toGrid toWorld rotate) loc = .value e')
    {p p' : Fin 3 → ℝ} (hfr : InFrame g.pose.R g.pose.t (toGrid loc) p)
    {o : Fin 3 → ℤ} (ho : CellInGrid (axisCells g.dims) o) {x y : Vec ℝ} (hxy : InFrame g.pose.R g.pose.t x y)
    (hx : InClosedCell g.s o x) :
    (filled (cellIdx o) = true → e' - (Real.sqrt 3 + 3 + N / 2 ^ 44 + N ^ 2 / 2 ^ 37) * g.s - dist3 p p' ≤ dist3 p' y) ∧
    (filled (cellIdx o) = false → -e' - (Real.sqrt 3 + 3 + N / 2 ^ 44 + N ^ 2 / 2 ^ 37) * g.s - dist3 p p' ≤ dist3 p' y) := by
  have hsb : (2 : ℝ) ^ (-1022 : ℤ) ≤ g.s := le_trans (zpow_le_zpow_right₀ (by norm_num) (by norm_num)) hs
  have hsb' : g.s ≤ (2 : ℝ) ^ (1022 : ℤ) := hs'.trans (zpow_le_zpow_right₀ (by norm_num) (by norm_num))
  have hp : Precise (roundDouble : ℝ → ℝ) (2 ^ (-53 : ℤ)) (2 ^ (-1075 : ℤ)) g.s N := precise_double hsb h1 hN43
  have key := machine_clear_ball hg rfl (k := 53) (emin := -1074) rfl rfl (by norm_num) (by norm_num) hs hp
    (hint.accurate hs hs' h1 hN43) (by have := hp.k0; linarith) hN (double_inverse hsb hsb') he' hfr (p' := p') ho hxy hx
  have hm := machine_margin (v := 2 ^ (-((53 : ℕ) : ℤ))) (c := 1 / 2 ^ 44) hp.s0.le h1 (by norm_num)
  refine key.imp (fun h hf => ?_) (fun h hf => ?_) <;> have := h hf <;> linarith

/-- C68. The same for `SignedDistanceField<double>`. -/
theorem C68_clear_ball_inside_double (hg : GeneratedBy doubleSDF filled border g) (hs : (2 : ℝ) ^ (-100 : ℤ) ≤ g.s) (hs' : g.s ≤ 2 ^ (100 : ℤ))
    (h1 : 1 ≤ N) (hN43 : N ≤ 2 ^ 43) (hN : ∀ a, (axisCells g.dims a : ℝ) ≤ N) (hint : DoubleInterpolation interp)
    {loc : Vec4 ℝ} {e' : ℝ} (he' : flEstimate (roundedQuery roundDouble norm interp)
      (g.computed (roundDouble (1 / g.s)) toGrid toWorld rotate) loc = .value e')
    {p p' : Fin 3 → ℝ} (hfr : InFrame g.pose.R g.pose.t (toGrid loc) p)
    (hmid : ∀ a, axisCells g.dims a = 1 ∨ (g.s / 2 + 16 * (2 ^ (-53 : ℤ) * N) * g.s ≤ toGrid loc a ∧
      toGrid loc a ≤ ((axisCells g.dims a : ℝ) - 1 / 2) * g.s - 16 * (2 ^ (-53 : ℤ) * N) * g.s))
    {o : Fin 3 → ℤ} (ho : CellInGrid (axisCells g.dims) o) {x y : Vec ℝ} (hxy : InFrame g.pose.R g.pose.t x y)
    (hx : InClosedCell g.s o x) :
    (filled (cellIdx o) = true → e' - (Real.sqrt 3 - 1 / 2 + N / 2 ^ 44 + N ^ 2 / 2 ^ 37) * g.s - dist3 p p' ≤ dist3 p' y) ∧
    (filled (cellIdx o) = false → -e' - (Real.sqrt 3 - 1 / 2 + N / 2 ^ 44 + N ^ 2 / 2 ^ 37) * g.s - dist3 p p' ≤ dist3 p' y) := by
  have hsb : (2 : ℝ) ^ (-1022 : ℤ) ≤ g.s := le_trans (zpow_le_zpow_right₀ (by norm_num) (by norm_num)) hs
  have hsb' : g.s ≤ (2 : ℝ) ^ (1022 : ℤ) := hs'.trans (zpow_le_zpow_right₀ (by norm_num) (by norm_num))
  have hp : Precise (roundDouble : ℝ → ℝ) (2 ^ (-53 : ℤ)) (2 ^ (-1075 : ℤ)) g.s N := precise_double hsb h1 hN43
  have key := machine_clear_ball_inside hg rfl (k := 53) (emin := -1074) rfl rfl (by norm_num) (by norm_num) hs hp
    (hint.accurate hs hs' h1 hN43) (by have := hp.k0; linarith) hN (double_inverse hsb hsb') he' hfr hmid (p' := p') ho hxy hx
  have hm := machine_margin (v := 2 ^ (-((53 : ℕ) : ℤ))) (c := 1 / 2 ^ 44) hp.s0.le h1 (by norm_num)
  refine key.imp (fun h hf => ?_) (fun h hf => ?_) <;> have := h hf <;> linarith

/-- C68. Projection, for the `float` field: a location returned by `ProjectOutOfCollisionToMinimumDistance` that is in the grid is
farther from every filled cell than the requested distance less the same margin. `p` is the place of the computed grid-frame
coordinates of the returned location `p'`. -/
theorem C68_projection_clear_float (hg : GeneratedBy floatSDF filled border g) (hs : (2 : ℝ) ^ (-100 : ℤ) ≤ g.s) (hs' : g.s ≤ 2 ^ (100 : ℤ))
    (h1 : 1 ≤ N) (hN43 : N ≤ 2 ^ 43) (hN : ∀ a, (axisCells g.dims a : ℝ) ≤ N) (hint : DoubleInterpolation interp)
    {fuel : ℕ} {loc ret : Vec4 ℝ} {minDist mult : ℝ} (hret : flProject (roundedQuery roundDouble norm interp)
      (g.computed (roundDouble (1 / g.s)) toGrid toWorld rotate) fuel loc minDist mult = some (.value ret))
    (hin : flEstimate (roundedQuery roundDouble norm interp)
      (g.computed (roundDouble (1 / g.s)) toGrid toWorld rotate) loc ≠ .empty)
    {p p' : Fin 3 → ℝ} (hfr : InFrame g.pose.R g.pose.t (toGrid ret) p)
    {o : Fin 3 → ℤ} (ho : CellInGrid (axisCells g.dims) o) (hfo : filled (cellIdx o) = true) {x y : Vec ℝ}
    (hxy : InFrame g.pose.R g.pose.t x y) (hx : InClosedCell g.s o x) :
    minDist - (Real.sqrt 3 + 3 + N / 2 ^ 18 + N ^ 2 / 2 ^ 37) * g.s - dist3 p p' < dist3 p' y := by
  obtain ⟨_, h | ⟨d, hd, hlt⟩⟩ := C65_project _ _ hret
  · exact absurd h.2 hin
  · have := (C68_clear_ball_float hg hs hs' h1 hN43 hN hint hd hfr (p' := p') ho hxy hx).1 hfo
    have hlt : minDist < d := by
      have : decide (d ≤ minDist) = false := hlt
      simpa using this
    linarith

/-- C68. Projection, for the `double` field. -/
theorem C68_projection_clear_double (hg : GeneratedBy doubleSDF filled border g) (hs : (2 : ℝ) ^ (-100 : ℤ) ≤ g.s) (hs' : g.s ≤ 2 ^ (100 : ℤ))
    (h1 : 1 ≤ N) (hN43 : N ≤ 2 ^ 43) (hN : ∀ a, (axisCells g.dims a : ℝ) ≤ N) (hint : DoubleInterpolation interp)
    {fuel : ℕ} {loc ret : Vec4 ℝ} {minDist mult : ℝ} (hret : flProject (roundedQuery roundDouble norm interp)
      (g.computed (roundDouble (1 / g.s)) toGrid toWorld rotate) fuel loc minDist mult = some (.value ret))
    (hin : flEstimate (roundedQuery roundDouble norm interp)
      (g.computed (roundDouble (1 / g.s)) toGrid toWorld rotate) loc ≠ .empty)
    {p p' : Fin 3 → ℝ} (hfr : InFrame g.pose.R g.pose.t (toGrid ret) p)
    {o : Fin 3 → ℤ} (ho : CellInGrid (axisCells g.dims) o) (hfo : filled (cellIdx o) = true) {x y : Vec ℝ}
    (hxy : InFrame g.pose.R g.pose.t x y) (hx : InClosedCell g.s o x) :
    minDist - (Real.sqrt 3 + 3 + N / 2 ^ 44 + N ^ 2 / 2 ^ 37) * g.s - dist3 p p' < dist3 p' y := by
  obtain ⟨_, h | ⟨d, hd, hlt⟩⟩ := C65_project _ _ hret
  · exact absurd h.2 hin
  · have := (C68_clear_ball_double hg hs hs' h1 hN43 hN hint hd hfr (p' := p') ho hxy hx).1 hfo
    have hlt : minDist < d := by
      have : decide (d ≤ minDist) = false := hlt
      simpa using this
    linarith

end

/-- Every extraction from a grid with a free and a filled cell gives finite values, in every admissible arithmetic. -/
theorem finite_run {ro : Rounding} {gi : GridInfo} (hok : GenOK ro gi) {isFilled : ZIdx → Option Bool} {filled : Idx → Bool}
    (hf : ∀ i, gi.dims.In i → isFilled (toZ i) = some (filled i)) {border : Bool} {oob : Rl} {i j : Idx} (hi : gi.dims.In i)
    (fi : filled i = false) (hj : gi.dims.In j) (fj : filled j = true) {r : Option (Idx → Rl)} (hr : GridGenRuns ro gi isFilled border oob r) :
    ∃ (out : Idx → Rl) (data : Idx → ℝ), r = some out ∧ ∀ k, gi.dims.In k → out k = .fin (data k) := by
  obtain ⟨out, rfl, -, h⟩ := gridRuns_eq hok hf hr
  have ne : ∀ (v : Bool) (k : Idx), gi.dims.In k → filled k = v → ∀ z, ∃ n : ℕ, sqDistZ (targets gi.dims border filled v) z = n := by
    intro v k hk hv z
    cases hD : sqDistZ (targets gi.dims border filled v) z using ENat.recTopCoe with
    | top =>
      have hm : toZ k ∈ targets gi.dims border filled v := .inl ⟨k, hk, hv, rfl⟩
      rw [sqDistZ_top.1 hD] at hm
      exact absurd hm (Set.notMem_empty _)
    | coe n => exact ⟨n, rfl⟩
  have hfin : ∀ k, gi.dims.In k → ∃ r, out k = .fin r := by
    intro k hk
    rw [h k hk]
    obtain ⟨n, hn⟩ := ne false i hi fi (toZ k)
    obtain ⟨m, hm⟩ := ne true j hj fj (toZ k)
    rw [hn, hm, scaled_coe, scaled_coe]
    split_ifs
    · exact ⟨_, rfl⟩
    · exact ⟨_, rfl⟩
  refine ⟨out, fun i => match out i with | .fin r => r | _ => 0, rfl, fun k hk => ?_⟩
  obtain ⟨r, hr⟩ := hfin k hk
  simp only [hr]

/-- Every layout with a free and a filled cell has a generated field in every admissible arithmetic, with or without virtual
border, at any pose. -/
theorem C68_generated_exists {ro : Rounding} {gi : GridInfo} (hok : GenOK ro gi) {P : Pose ℝ} (hP : Orthogonal P.R)
    {filled : Idx → Bool} (border : Bool) {i j : Idx} (hi : gi.dims.In i) (fi : filled i = false) (hj : gi.dims.In j)
    (fj : filled j = true) :
    ∃ g : SDFGrid ℝ, GeneratedBy ro filled border g ∧ g.dims = gi.dims ∧ g.s = gi.sx ∧ g.pose = P := by
  have hf : ∀ i, gi.dims.In i → (fun z : ZIdx => some (filled (z.1.toNat, z.2.1.toNat, z.2.2.toNat))) (toZ i) = some (filled i) :=
    fun _ _ => rfl
  obtain ⟨r, hr⟩ := gridRuns_exists hok (fun z : ZIdx => some (filled (z.1.toNat, z.2.1.toNat, z.2.2.toNat))) border (.fin 0)
  obtain ⟨out, data, rfl, h⟩ := finite_run hok hf hi fi hj fj hr
  exact ⟨⟨gi.dims, gi.sx, P, data⟩, ⟨hP, gi, _, .fin 0, out, hok, rfl, rfl, hf, hr, h⟩, rfl, rfl, rfl⟩

theorem exRow_ok : GenOK floatSDF ⟨⟨64, 1, 1⟩, 1, 1, 1⟩ where
  rq := roundDouble_isDoubleRounding
  rr := roundDouble_isRounding
  rc := roundFloat_isRounding
  uniform := ⟨rfl, rfl⟩
  res := one_pos
  repr := roundDouble_isRounding.one
  castPos := by
    have : floatSDF.cast 1 = 1 := roundFloat_isRounding.one
    rw [this]; exact one_pos
  fits := by constructor <;> decide

/-- The computed estimate at `(40.5, 0.5, 0.5)` in a row of 64 cells of edge 1, filled at its first cell: more than 37. -/
theorem row_estimate_float {g : SDFGrid ℝ} (hg : GeneratedBy floatSDF (fun i => decide (i.1 = 0)) false g) (hd : g.dims = ⟨64, 1, 1⟩)
    (hs : g.s = 1) :
    ∃ e', flEstimate (roundedQuery roundDouble (fun _ => 0) (flTrilinear (roundedArith roundDouble)))
      (g.computed (roundDouble (1 / g.s)) (fun l => l.v) id id) (point4 ![81 / 2, 1 / 2, 1 / 2]) = .value e' ∧ 37 < e' := by
  have hN : ∀ a, (axisCells g.dims a : ℝ) ≤ 64 := by
    rw [hd]; intro a; fin_cases a <;> simp [axisCells]
  have s1 : (2 : ℝ) ^ (-100 : ℤ) ≤ g.s := by rw [hs]; norm_num
  have s2 : g.s ≤ (2 : ℝ) ^ (100 : ℤ) := by rw [hs]; norm_num
  have hsb : (2 : ℝ) ^ (-1022 : ℤ) ≤ g.s := le_trans (zpow_le_zpow_right₀ (by norm_num) (by norm_num)) s1
  have hsb' : g.s ≤ (2 : ℝ) ^ (1022 : ℤ) := s2.trans (zpow_le_zpow_right₀ (by norm_num) (by norm_num))
  have hp : Precise (roundDouble : ℝ → ℝ) (2 ^ (-53 : ℤ)) (2 ^ (-1075 : ℤ)) g.s 64 := precise_double hsb (by norm_num) (by norm_num)
  obtain ⟨e', he'⟩ := (C67_estimate_defined hp (double_inverse hsb hsb') (norm := fun _ => 0)
    (interp := flTrilinear (roundedArith roundDouble)) (toGrid := fun l => l.v) (toWorld := id) (rotate := id)
    (loc := point4 ![81 / 2, 1 / 2, 1 / 2]) (by
      rw [hs]; intro a; fin_cases a <;> simp [point4] <;> norm_num [abs_le])).1 (by
      rw [hs, hd]; intro a; fin_cases a <;> simp [point4, axisCells] <;> norm_num)
  have hlow : 37 < e' := by
    obtain ⟨g₀, q', p', e, hg0, hd0, hs0, hP0, hbox, hq', hfr, he, hb⟩ := machine_estimate hg rfl (k := 24) (emin := -149) rfl rfl
      (by norm_num) (by norm_num) s1 hp (DoubleInterpolation.accurate (.inl rfl) s1 s2 (by norm_num) (by norm_num))
      (by have := hp.k0; linarith) hN (double_inverse hsb hsb') he'
    rw [hs] at hb hq' hs0
    have q0 := abs_le.1 (hq' 0)
    have q1 := abs_le.1 (hq' 1)
    have q2 := abs_le.1 (hq' 2)
    simp only [point4, Matrix.cons_val_zero, Matrix.cons_val_one, Matrix.cons_val] at q0 q1 q2
    norm_num at q0 q1 q2
    have hcl : ∀ o : Fin 3 → ℤ, 0 ≤ o 0 → decide ((cellIdx o).1 = 0) = true → o 0 = 0 := by
      intro o h0 h
      have := of_decide_eq_true h
      unfold cellIdx at this
      dsimp only at this
      omega
    have := C58_not_pessimistic hg0 hfr (by
      rw [hd0, hd, hs0]
      intro a; fin_cases a
      · right; simp [axisCells]; constructor <;> linarith
      · left; rfl
      · left; rfl) he (by
      intro c hc ha
      have h0 := abs_le.1 (ha 0)
      rw [hs0] at h0
      unfold cellCentre at h0
      by_contra hcc
      have hz := hcl c (hc 0).1 (by simpa using hcc)
      rw [hz] at h0
      norm_num at h0
      linarith) (r := 39) (by
      intro o ho hfo
      have hz := hcl o (ho 0).1 hfo
      unfold dist3
      apply Real.le_sqrt_of_sq_le
      have : (39 : ℝ) ^ 2 ≤ (q' 0 - cellCentre g₀.s o 0) ^ 2 := by
        rw [hs0]
        unfold cellCentre
        rw [hz]
        norm_num
        nlinarith
      nlinarith [sq_nonneg (q' 1 - cellCentre g₀.s o 1), sq_nonneg (q' 2 - cellCentre g₀.s o 2)])
    rw [hs0] at this
    have h3 : Real.sqrt 3 ≤ 2 := by rw [Real.sqrt_le_left (by norm_num)]; norm_num
    have hb := abs_le.1 hb
    norm_num at hb
    linarith
  exact ⟨e', he', hlow⟩

/-- A row of 64 cells of edge 1, filled at its first cell, in single precision: at `(40.5, 0.5, 0.5)` the computed estimate is
more than 37, so that the theorem gives a clear ball of radius 32. -/
example : ∃ g : SDFGrid ℝ, GeneratedBy floatSDF (fun i => decide (i.1 = 0)) false g ∧ g.s = 1 ∧ (∀ a, (axisCells g.dims a : ℝ) ≤ 64) ∧
    InFrame g.pose.R g.pose.t ![81 / 2, 1 / 2, 1 / 2] ![81 / 2, 1 / 2, 1 / 2] ∧
    (∃ e', flEstimate (roundedQuery roundDouble (fun _ => 0) (flTrilinear (roundedArith roundDouble)))
      (g.computed (roundDouble (1 / g.s)) (fun l => l.v) id id) (point4 ![81 / 2, 1 / 2, 1 / 2]) = .value e' ∧ 37 < e') ∧
    ∀ y, InClosedCell 1 ![0, 0, 0] y → 32 ≤ dist3 ![81 / 2, 1 / 2, 1 / 2] y := by
  obtain ⟨g, hg, hd, hs, hP⟩ := C68_generated_exists exRow_ok (P := ⟨fun i j => if i = j then 1 else 0, fun _ => 0⟩)
    (by constructor <;> intro a b <;> fin_cases a <;> fin_cases b <;> simp) (filled := fun i => decide (i.1 = 0)) false
    (i := (1, 0, 0)) (by decide) (by decide) (j := (0, 0, 0)) (by decide) (by decide)
  dsimp only at hd hs
  have hframe : ∀ x : Fin 3 → ℝ, InFrame g.pose.R g.pose.t x x := by
    rw [hP]; intro x a; fin_cases a <;> simp
  have hN : ∀ a, (axisCells g.dims a : ℝ) ≤ 64 := by
    rw [hd]; intro a; fin_cases a <;> simp [axisCells]
  have s1 : (2 : ℝ) ^ (-100 : ℤ) ≤ g.s := by rw [hs]; norm_num
  have s2 : g.s ≤ (2 : ℝ) ^ (100 : ℤ) := by rw [hs]; norm_num
  obtain ⟨e', he', hlow⟩ := row_estimate_float hg hd hs
  refine ⟨g, hg, hs, hN, hframe _, ⟨e', he', hlow⟩, fun y hy => ?_⟩
  have := (C68_clear_ball_float hg s1 s2 (N := 64) (by norm_num) (by norm_num) hN (.inl rfl) he' (hframe _)
    (p' := ![81 / 2, 1 / 2, 1 / 2]) (o := ![0, 0, 0]) (by rw [hd]; intro a; fin_cases a <;> simp [axisCells]) (hframe y)
    (by rw [hs]; exact hy)).1 (by decide)
  have h3 : Real.sqrt 3 ≤ 19 / 10 := by rw [Real.sqrt_le_left (by norm_num)]; norm_num
  have h0 : dist3 (point4 (![81 / 2, 1 / 2, 1 / 2] : Fin 3 → ℝ)).v ![81 / 2, 1 / 2, 1 / 2] = 0 := by
    unfold dist3 point4; simp
  rw [h0, hs] at this
  norm_num at this
  linarith

theorem exRow_ok_double : GenOK doubleSDF ⟨⟨64, 1, 1⟩, 1, 1, 1⟩ where
  rq := roundDouble_isDoubleRounding
  rr := roundDouble_isRounding
  rc := roundDouble_isRounding
  uniform := ⟨rfl, rfl⟩
  res := one_pos
  repr := roundDouble_isRounding.one
  castPos := by
    have : doubleSDF.cast 1 = 1 := roundDouble_isRounding.one
    rw [this]; exact one_pos
  fits := by constructor <;> decide

/-- The computed estimate at `(40.5, 0.5, 0.5)` in a row of 64 cells of edge 1, filled at its first cell: more than 37. -/
theorem row_estimate_double {g : SDFGrid ℝ} (hg : GeneratedBy doubleSDF (fun i => decide (i.1 = 0)) false g) (hd : g.dims = ⟨64, 1, 1⟩)
    (hs : g.s = 1) :
    ∃ e', flEstimate (roundedQuery roundDouble (fun _ => 0) (flTrilinear (roundedArith roundDouble)))
      (g.computed (roundDouble (1 / g.s)) (fun l => l.v) id id) (point4 ![81 / 2, 1 / 2, 1 / 2]) = .value e' ∧ 37 < e' := by
  have hN : ∀ a, (axisCells g.dims a : ℝ) ≤ 64 := by
    rw [hd]; intro a; fin_cases a <;> simp [axisCells]
  have s1 : (2 : ℝ) ^ (-100 : ℤ) ≤ g.s := by rw [hs]; norm_num
  have s2 : g.s ≤ (2 : ℝ) ^ (100 : ℤ) := by rw [hs]; norm_num
  have hsb : (2 : ℝ) ^ (-1022 : ℤ) ≤ g.s := le_trans (zpow_le_zpow_right₀ (by norm_num) (by norm_num)) s1
  have hsb' : g.s ≤ (2 : ℝ) ^ (1022 : ℤ) := s2.trans (zpow_le_zpow_right₀ (by norm_num) (by norm_num))
  have hp : Precise (roundDouble : ℝ → ℝ) (2 ^ (-53 : ℤ)) (2 ^ (-1075 : ℤ)) g.s 64 := precise_double hsb (by norm_num) (by norm_num)
  obtain ⟨e', he'⟩ := (C67_estimate_defined hp (double_inverse hsb hsb') (norm := fun _ => 0)
    (interp := flTrilinear (roundedArith roundDouble)) (toGrid := fun l => l.v) (toWorld := id) (rotate := id)
    (loc := point4 ![81 / 2, 1 / 2, 1 / 2]) (by
      rw [hs]; intro a; fin_cases a <;> simp [point4] <;> norm_num [abs_le])).1 (by
      rw [hs, hd]; intro a; fin_cases a <;> simp [point4, axisCells] <;> norm_num)
  have hlow : 37 < e' := by
    obtain ⟨g₀, q', p', e, hg0, hd0, hs0, hP0, hbox, hq', hfr, he, hb⟩ := machine_estimate hg rfl (k := 53) (emin := -1074) rfl rfl
      (by norm_num) (by norm_num) s1 hp (DoubleInterpolation.accurate (.inl rfl) s1 s2 (by norm_num) (by norm_num))
      (by have := hp.k0; linarith) hN (double_inverse hsb hsb') he'
    rw [hs] at hb hq' hs0
    have q0 := abs_le.1 (hq' 0)
    have q1 := abs_le.1 (hq' 1)
    have q2 := abs_le.1 (hq' 2)
    simp only [point4, Matrix.cons_val_zero, Matrix.cons_val_one, Matrix.cons_val] at q0 q1 q2
    norm_num at q0 q1 q2
    have hcl : ∀ o : Fin 3 → ℤ, 0 ≤ o 0 → decide ((cellIdx o).1 = 0) = true → o 0 = 0 := by
      intro o h0 h
      have := of_decide_eq_true h
      unfold cellIdx at this
      dsimp only at this
      omega
    have := C58_not_pessimistic hg0 hfr (by
      rw [hd0, hd, hs0]
      intro a; fin_cases a
      · right; simp [axisCells]; constructor <;> linarith
      · left; rfl
      · left; rfl) he (by
      intro c hc ha
      have h0 := abs_le.1 (ha 0)
      rw [hs0] at h0
      unfold cellCentre at h0
      by_contra hcc
      have hz := hcl c (hc 0).1 (by simpa using hcc)
      rw [hz] at h0
      norm_num at h0
      linarith) (r := 39) (by
      intro o ho hfo
      have hz := hcl o (ho 0).1 hfo
      unfold dist3
      apply Real.le_sqrt_of_sq_le
      have : (39 : ℝ) ^ 2 ≤ (q' 0 - cellCentre g₀.s o 0) ^ 2 := by
        rw [hs0]
        unfold cellCentre
        rw [hz]
        norm_num
        nlinarith
      nlinarith [sq_nonneg (q' 1 - cellCentre g₀.s o 1), sq_nonneg (q' 2 - cellCentre g₀.s o 2)])
    rw [hs0] at this
    have h3 : Real.sqrt 3 ≤ 2 := by rw [Real.sqrt_le_left (by norm_num)]; norm_num
    have hb := abs_le.1 hb
    norm_num at hb
    linarith
  exact ⟨e', he', hlow⟩

/-- A row of 64 cells of edge 1, filled at its first cell, in double precision: at `(40.5, 0.5, 0.5)` the computed estimate is
more than 37, so that the theorem gives a clear ball of radius 32. -/
example : ∃ g : SDFGrid ℝ, GeneratedBy doubleSDF (fun i => decide (i.1 = 0)) false g ∧ g.s = 1 ∧ (∀ a, (axisCells g.dims a : ℝ) ≤ 64) ∧
    InFrame g.pose.R g.pose.t ![81 / 2, 1 / 2, 1 / 2] ![81 / 2, 1 / 2, 1 / 2] ∧
    (∃ e', flEstimate (roundedQuery roundDouble (fun _ => 0) (flTrilinear (roundedArith roundDouble)))
      (g.computed (roundDouble (1 / g.s)) (fun l => l.v) id id) (point4 ![81 / 2, 1 / 2, 1 / 2]) = .value e' ∧ 37 < e') ∧
    ∀ y, InClosedCell 1 ![0, 0, 0] y → 32 ≤ dist3 ![81 / 2, 1 / 2, 1 / 2] y := by
  obtain ⟨g, hg, hd, hs, hP⟩ := C68_generated_exists exRow_ok_double (P := ⟨fun i j => if i = j then 1 else 0, fun _ => 0⟩)
    (by constructor <;> intro a b <;> fin_cases a <;> fin_cases b <;> simp) (filled := fun i => decide (i.1 = 0)) false
    (i := (1, 0, 0)) (by decide) (by decide) (j := (0, 0, 0)) (by decide) (by decide)
  dsimp only at hd hs
  have hframe : ∀ x : Fin 3 → ℝ, InFrame g.pose.R g.pose.t x x := by
    rw [hP]; intro x a; fin_cases a <;> simp
  have hN : ∀ a, (axisCells g.dims a : ℝ) ≤ 64 := by
    rw [hd]; intro a; fin_cases a <;> simp [axisCells]
  have s1 : (2 : ℝ) ^ (-100 : ℤ) ≤ g.s := by rw [hs]; norm_num
  have s2 : g.s ≤ (2 : ℝ) ^ (100 : ℤ) := by rw [hs]; norm_num
  obtain ⟨e', he', hlow⟩ := row_estimate_double hg hd hs
  refine ⟨g, hg, hs, hN, hframe _, ⟨e', he', hlow⟩, fun y hy => ?_⟩
  have := (C68_clear_ball_double hg s1 s2 (N := 64) (by norm_num) (by norm_num) hN (.inl rfl) he' (hframe _)
    (p' := ![81 / 2, 1 / 2, 1 / 2]) (o := ![0, 0, 0]) (by rw [hd]; intro a; fin_cases a <;> simp [axisCells]) (hframe y)
    (by rw [hs]; exact hy)).1 (by decide)
  have h3 : Real.sqrt 3 ≤ 19 / 10 := by rw [Real.sqrt_le_left (by norm_num)]; norm_num
  have h0 : dist3 (point4 (![81 / 2, 1 / 2, 1 / 2] : Fin 3 → ℝ)).v ![81 / 2, 1 / 2, 1 / 2] = 0 := by
    unfold dist3 point4; simp
  rw [h0, hs] at this
  norm_num at this
  linarith

end VGT
