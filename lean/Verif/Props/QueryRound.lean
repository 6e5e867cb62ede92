import Verif.Lemmas.QueryRoundBilinear
import Verif.Lemmas.IEEE
import Verif.Props.QueryFloat
import Verif.Props.Clearance

/-!
C67: how far rounding moves the estimated distance.
-/
set_option autoImplicit false

namespace VGT
open VGT.EDT VGT.Spec

section
variable {K : Type} [Field K] [LinearOrder K] [IsStrictOrderedRing K] [FloorRing K]

/-- The field of the model with open arithmetic that has the stored distances of `g`, the computed inverse cell size `inv`
and a given computation of grid-frame locations. -/
def SDFGrid.computed (g : SDFGrid K) (inv : K) (toGrid : Vec4 K → Fin 3 → K) (toWorld rotate : (Fin 3 → K) → Fin 3 → K) : FlSDF K :=
  ⟨g.dims, g.s, inv, g.data, toGrid, toWorld, rotate⟩

variable {r : K → K} {u η N M γ : K} {norm : (Fin 3 → K) → K}
  {interp : (Fin 3 → K) → (Fin 3 → K) → (Bool → Bool → Bool → K) → (Fin 3 → K) → K} {g : SDFGrid K} {inv : K}
  {toGrid : Vec4 K → Fin 3 → K} {toWorld rotate : (Fin 3 → K) → Fin 3 → K}

/-- The computed correction of a stored distance. -/
theorem Precise.towards (h : Precise r u η g.s N) {fg : FlSDF K} (hfs : fg.s = g.s) {v : K} (hsM : g.s ≤ M)
    (hM : |boundaryDist g.s v| ≤ M) :
    |towardsBoundary (roundedQuery r norm interp) fg v - boundaryDist g.s v| ≤ 4 * (u * N) * M := by
  have hs := h.s0
  have u0 := h.u0
  have hMpos : 0 < M := lt_of_lt_of_le hs hsM
  have huM : u * M ≤ u * N * M := mul_le_mul_of_nonneg_right h.u_le hMpos.le
  have huM0 : 0 ≤ u * M := mul_nonneg u0 hMpos.le
  have hkM : u * N * M ≤ 1 / 1000 * M := mul_le_mul_of_nonneg_right h.small hMpos.le
  have hus : u * g.s ≤ u * M := mul_le_mul_of_nonneg_left hsM u0
  have heta := h.eta_s
  have hhalf : |r (g.s * (1 / 2)) - g.s / 2| ≤ 3 / 2 * (u * M) := by
    have := h.err (g.s * (1 / 2))
    rw [abs_of_pos (by linarith : 0 < g.s * (1 / 2)), mul_one_div] at this
    rw [mul_one_div]
    have e : u * (g.s / 2) = u * g.s / 2 := by ring
    linarith
  have fin : ∀ {x b : K}, |b| ≤ M → |x - b| ≤ 3 / 2 * (u * M) → |r x - b| ≤ 4 * (u * N) * M := by
    intro x b hb hx
    have h1 := h.near hx
    have h2 : u * (|b| + 3 / 2 * (u * M)) ≤ u * ((1 + 3 / 2 * (1 / 1000)) * M) := by
      refine mul_le_mul_of_nonneg_left ?_ u0
      linarith
    linarith
  unfold towardsBoundary
  unfold boundaryDist at hM ⊢
  by_cases hv : 0 ≤ v
  · rw [if_pos (by simpa [roundedQuery, roundedArith] using hv)]
    rw [if_pos hv] at hM ⊢
    refine fin (x := v - r (fg.s * (1 / 2))) hM ?_
    rw [hfs]
    have : v - r (g.s * (1 / 2)) - (v - g.s / 2) = -(r (g.s * (1 / 2)) - g.s / 2) := by ring
    rwa [this, abs_neg]
  · rw [if_neg (by simpa [roundedQuery, roundedArith] using hv)]
    rw [if_neg hv] at hM ⊢
    refine fin (x := v + r (fg.s * (1 / 2))) hM ?_
    rw [hfs]
    have : v + r (g.s * (1 / 2)) - (v + g.s / 2) = r (g.s * (1 / 2)) - g.s / 2 := by ring
    rwa [this]

/-- The computed index. -/
theorem computed_index {loc : Vec4 K} :
    flIndexOf (roundedQuery r norm interp) (g.computed inv toGrid toWorld rotate) loc = some fun a => ⌊r (toGrid loc a * inv)⌋ :=
  (flIndexOf_some _ _).2 fun _ => rfl

/-- The cells picked with rounding. -/
theorem Precise.good_pair (h : Precise r u η g.s N) (hinv : |inv - 1 / g.s| ≤ 2 * u / g.s) {loc : Vec4 K} {a : Fin 3}
    (hN : (axisCells g.dims a : K) ≤ N) (hq : 0 ≤ toGrid loc a ∧ toGrid loc a < axisCells g.dims a * g.s)
    (hi : 0 ≤ ⌊r (toGrid loc a * inv)⌋ ∧ ⌊r (toGrid loc a * inv)⌋ < axisCells g.dims a) :
    GoodPair (10 * (u * N)) (toGrid loc a / g.s) (axisCells g.dims a)
      (flPair (roundedQuery r norm interp) (g.computed inv toGrid toWorld rotate) loc (fun a => ⌊r (toGrid loc a * inv)⌋) a).1
      (flPair (roundedQuery r norm interp) (g.computed inv toGrid toWorld rotate) loc (fun a => ⌊r (toGrid loc a * inv)⌋) a).2 := by
  have hs := h.s0
  have hk := h.k0
  have hqN : |toGrid loc a| ≤ N * g.s := by
    rw [abs_of_nonneg hq.1]
    exact hq.2.le.trans (mul_le_mul_of_nonneg_right hN hs.le)
  have hx := abs_le.1 (h.index hqN hinv)
  have f1 := Int.floor_le (r (toGrid loc a * inv))
  have f2 := Int.lt_floor_add_one (r (toGrid loc a * inv))
  obtain ⟨i, hii⟩ : ∃ i, i = ⌊r (toGrid loc a * inv)⌋ := ⟨_, rfl⟩
  rw [← hii] at f1 f2 hi
  have hiN : |(i : K)| ≤ N := by
    have h0 : (0 : K) ≤ i := by exact_mod_cast hi.1
    have h1 : (i : K) ≤ axisCells g.dims a := by exact_mod_cast hi.2.le
    rw [abs_of_nonneg h0]
    linarith
  have hc := abs_le.1 (h.centre hiN)
  have hpair : flPair (roundedQuery r norm interp) (g.computed inv toGrid toWorld rotate) loc (fun a => ⌊r (toGrid loc a * inv)⌋) a =
      flAxisIndices i (axisCells g.dims a) (decide (0 ≤ r (toGrid loc a - r (r (r i + 1 / 2) * g.s)))) := by
    rw [hii]
    rfl
  rw [hpair]
  have ht : toGrid loc a = toGrid loc a / g.s * g.s := by field_simp
  generalize toGrid loc a / g.s = t at hx ht ⊢
  refine flAxisIndices_good (by linarith) hi.1 hi.2 (by linarith [hx.1, hx.2]) (by linarith [hx.1, hx.2]) ?_ ?_
  · intro hup
    have := h.sign_up (of_decide_eq_true hup)
    have h3 : ((i : K) + 1 / 2 - 10 * (u * N)) * g.s ≤ t * g.s := by
      rw [ht] at this
      linarith [hc.1, hc.2]
    exact le_of_mul_le_mul_right h3 hs
  · intro hdn
    have := h.sign_down (lt_of_not_ge (of_decide_eq_false hdn))
    have h3 : t * g.s ≤ ((i : K) + 1 / 2 + 10 * (u * N)) * g.s := by
      rw [ht] at this
      linarith [hc.1, hc.2]
    exact le_of_mul_le_mul_right h3 hs

/-- C67, for any accurate interpolation. -/
theorem estimate_accuracy (h : Precise r u η g.s N) (hacc : Accurate interp r u g.s N γ) (hγ : 0 ≤ γ)
    (hN : ∀ a, (axisCells g.dims a : K) ≤ N) (hinv : |inv - 1 / g.s| ≤ 2 * u / g.s) (hP : Orthogonal g.pose.R)
    {q p : Fin 3 → K} (hfr : InFrame g.pose.R g.pose.t q p) (hbox : InGridBox (axisCells g.dims) g.s q)
    {loc : Vec4 K} (hloc : toGrid loc = q) (hsM : g.s ≤ M)
    (hM : ∀ c, CellInGrid (axisCells g.dims) c → |boundaryDist g.s (stored g.data c)| ≤ M) {e' : K}
    (he' : flEstimate (roundedQuery r norm interp) (g.computed inv toGrid toWorld rotate) loc = .value e') :
    ∃ e, g.estimate (point4 p) = some (some e) ∧ |e' - e| ≤ (1188 * (u * N) + 101 / 100 * γ) * M := by
  have hs := h.s0
  have hk := h.k0
  have hMpos : 0 < M := lt_of_lt_of_le hs hsM
  have hkM : u * N * M ≤ 1 / 1000 * M := mul_le_mul_of_nonneg_right h.small hMpos.le
  refine ⟨_, estimate_in hs hP hfr hbox, ?_⟩
  set A := roundedQuery r norm interp
  set fg := g.computed inv toGrid toWorld rotate with hfg
  obtain ⟨i, hi⟩ : ∃ i : IVec, i = fun a => ⌊r (toGrid loc a * inv)⌋ := ⟨_, rfl⟩
  have hidx : flIndexOf A fg loc = some i := by rw [hi]; exact computed_index
  have hin : CellInGrid (axisCells g.dims) i := by
    by_contra hc
    unfold flEstimate at he'
    rw [hidx] at he'
    dsimp only at he'
    rw [if_neg (show ¬ inGrid fg.dims i = true from fun hg => hc (inGrid_axis.1 hg))] at he'
    cases he'
  have hgood : ∀ a, GoodPair (10 * (u * N)) (q a / g.s) (axisCells g.dims a) (flPair A fg loc i a).1 (flPair A fg loc i a).2 := by
    intro a
    have hq := hbox a
    have hia := hin a
    rw [hi] at hia ⊢
    have := h.good_pair (norm := norm) (interp := interp) (toWorld := toWorld) (rotate := rotate) hinv (loc := loc) (hN a)
      (by rw [hloc]; exact hq) hia
    rw [hloc] at this ⊢
    exact this
  obtain ⟨lo, hlo⟩ : ∃ lo : IVec, lo = fun a => (flPair A fg loc i a).1 := ⟨_, rfl⟩
  obtain ⟨hi', hhi⟩ : ∃ hi' : IVec, hi' = fun a => (flPair A fg loc i a).2 := ⟨_, rfl⟩
  have hgood' : ∀ a, GoodPair (10 * (u * N)) (q a / g.s) (axisCells g.dims a) (lo a) (hi' a) := by
    rw [hlo, hhi]; exact hgood
  have hbx : BoxAround (axisCells g.dims) i lo hi' := by
    rw [hlo, hhi]; exact flPair_around A fg hin
  -- the computed value
  have hval : e' = A.interp (fun a => r (r (r (lo a) + 1 / 2) * g.s)) (fun a => r (r (r (r (lo a) + 1 / 2) * g.s) + g.s))
      (fun x y z => towardsBoundary A fg (stored g.data (corner lo hi' x y z))) q := by
    unfold flEstimate at he'
    rw [hidx] at he'
    dsimp only at he'
    rw [if_pos (show inGrid fg.dims i = true from inGrid_axis.2 hin), flInterpolate_eq A fg hin] at he'
    dsimp only at he'
    injection he' with he'
    rw [← he', hlo, hhi, ← hloc]
    rfl
  obtain ⟨w, hw⟩ : ∃ w : Fin 3 → K, w = fun a => q a / g.s - ((lo a : K) + 1 / 2) := ⟨_, rfl⟩
  have hε4 : 10 * (u * N) ≤ 1 / 4 := by have := h.small; linarith
  have hwb : ∀ a, -1 ≤ w a ∧ w a ≤ 2 := by
    intro a
    rw [hw]
    have h0 : 0 ≤ q a / g.s := div_nonneg (hbox a).1 hs.le
    have h1 : q a / g.s ≤ axisCells g.dims a := by rw [div_le_iff₀ hs]; exact (hbox a).2.le
    exact (hgood' a).weight hε4 (by linarith) (by linarith)
  have hloN : ∀ a, |((lo a : ℤ) : K)| ≤ N := by
    intro a
    have h1 := hbx.inside a
    have h2 := hbx.adjacent a
    have h0 : (0 : K) ≤ lo a := by exact_mod_cast h1.1
    have h3 : (lo a : K) ≤ axisCells g.dims a := by exact_mod_cast (by omega : lo a ≤ axisCells g.dims a)
    rw [abs_of_nonneg h0]
    exact h3.trans (hN a)
  have hcorr : ∀ x y z, |towardsBoundary A fg (stored g.data (corner lo hi' x y z)) - boundaryDist g.s (stored g.data (corner lo hi' x y z))| ≤
      4 * (u * N) * M := fun x y z => h.towards rfl hsM (hM _ (corner_in hbx x y z))
  have hV : ∀ x y z, |towardsBoundary A fg (stored g.data (corner lo hi' x y z))| ≤ 101 / 100 * M := by
    intro x y z
    have h1 := hcorr x y z
    have h2 := hM _ (corner_in hbx x y z)
    have h3 := abs_add_le (towardsBoundary A fg (stored g.data (corner lo hi' x y z)) - boundaryDist g.s (stored g.data (corner lo hi' x y z)))
      (boundaryDist g.s (stored g.data (corner lo hi' x y z)))
    rw [sub_add_cancel] at h3
    linarith
  have b1 : |e' - triB w (fun x y z => towardsBoundary A fg (stored g.data (corner lo hi' x y z)))| ≤ γ * (101 / 100 * M) := by
    rw [hval]
    refine hacc (fun a => (lo a : K)) _ q w _ _ hloN (fun a => h.centre (hloN a)) ?_ hwb (by linarith) hV
    intro a
    rw [hw]
    field_simp
    ring
  have b2 := triB_le hwb hcorr
  -- the exact value
  have b3 := lin3_interp hs (by linarith : 0 ≤ 10 * (u * N)) hε4 (n := axisCells g.dims) (q := q)
    (fun a => by
      have := inGrid_axis.1 ((inGridBox_iff hs q).2 hbox) a
      exact this) hgood' (v := g.cval) (V := M) (by
      intro x y z hx hx' hy hy' hz hz'
      have := hM ![x, y, z] (by
        intro a; fin_cases a
        · exact ⟨hx, hx'⟩
        · exact ⟨hy, hy'⟩
        · exact ⟨hz, hz'⟩)
      exact this)
  have e3 : lin (q 2 / g.s) (lo 2) (hi' 2) (fun z => lin (q 1 / g.s) (lo 1) (hi' 1) fun y => lin (q 0 / g.s) (lo 0) (hi' 0) fun x => g.cval x y z) =
      triB w (fun x y z => boundaryDist g.s (stored g.data (corner lo hi' x y z))) := by
    rw [hw]
    rfl
  rw [e3] at b3
  have b4 := abs_add_le (e' - triB w (fun x y z => towardsBoundary A fg (stored g.data (corner lo hi' x y z))))
    (triB w (fun x y z => towardsBoundary A fg (stored g.data (corner lo hi' x y z))) -
      triB w (fun x y z => boundaryDist g.s (stored g.data (corner lo hi' x y z))))
  rw [sub_add_sub_cancel] at b4
  have b5 := abs_add_le (e' - triB w (fun x y z => boundaryDist g.s (stored g.data (corner lo hi' x y z))))
    (triB w (fun x y z => boundaryDist g.s (stored g.data (corner lo hi' x y z))) -
      (interp1 g.s (q 2) g.dims.nz fun z => interp1 g.s (q 1) g.dims.ny fun y => interp1 g.s (q 0) g.dims.nx fun x => g.cval x y z))
  rw [sub_add_sub_cancel] at b5
  have b3' : |triB w (fun x y z => boundaryDist g.s (stored g.data (corner lo hi' x y z))) -
      (interp1 g.s (q 2) g.dims.nz fun z => interp1 g.s (q 1) g.dims.ny fun y => interp1 g.s (q 0) g.dims.nx fun x => g.cval x y z)| ≤
      108 * (10 * (u * N)) * M := b3
  linarith

/-- C67. With any rounding of relative error `u` (and absolute error `η`), in a grid of at most `N` cells along each axis whose
values, corrected by half a cell edge, are at most `M` (`M` at least a cell edge), the computed estimate differs from the exact
one by at most `4400 u N M`. This includes locations for which rounding picks other cells than exact arithmetic. The exact
estimate is that of the location whose grid-frame coordinates are the computed ones. -/
theorem C67_estimate_accuracy (h : Precise r u η g.s N)
    (hN : ∀ a, (axisCells g.dims a : K) ≤ N) (hinv : |inv - 1 / g.s| ≤ 2 * u / g.s) (hP : Orthogonal g.pose.R)
    {q p : Fin 3 → K} (hfr : InFrame g.pose.R g.pose.t q p) (hbox : InGridBox (axisCells g.dims) g.s q)
    {loc : Vec4 K} (hloc : toGrid loc = q) (hsM : g.s ≤ M)
    (hM : ∀ c, CellInGrid (axisCells g.dims) c → |boundaryDist g.s (stored g.data c)| ≤ M) {e' : K}
    (he' : flEstimate (roundedQuery r norm (flTrilinear (roundedArith r))) (g.computed inv toGrid toWorld rotate) loc = .value e') :
    ∃ e, g.estimate (point4 p) = some (some e) ∧ |e' - e| ≤ 4400 * u * N * M := by
  have hk := h.k0
  obtain ⟨e, he, hb⟩ := estimate_accuracy h h.accurate_trilinear (by linarith) hN hinv hP hfr hbox hloc hsM hM he'
  refine ⟨e, he, hb.trans ?_⟩
  have hMpos : 0 < M := lt_of_lt_of_le h.s0 hsM
  have : 0 ≤ u * N * M := mul_nonneg hk hMpos.le
  linarith

/-- C67. The same with the other interpolation formula: at most `9300 u N M`. -/
theorem C67_estimate_accuracy_bilinear (h : Precise r u η g.s N) (h3 : η ≤ u * g.s ^ 3) (h2 : η ≤ u / g.s ^ 2)
    (hN : ∀ a, (axisCells g.dims a : K) ≤ N) (hinv : |inv - 1 / g.s| ≤ 2 * u / g.s) (hP : Orthogonal g.pose.R)
    {q p : Fin 3 → K} (hfr : InFrame g.pose.R g.pose.t q p) (hbox : InGridBox (axisCells g.dims) g.s q)
    {loc : Vec4 K} (hloc : toGrid loc = q) (hsM : g.s ≤ M)
    (hM : ∀ c, CellInGrid (axisCells g.dims) c → |boundaryDist g.s (stored g.data c)| ≤ M) {e' : K}
    (he' : flEstimate (roundedQuery r norm (flBilinear (roundedArith r))) (g.computed inv toGrid toWorld rotate) loc = .value e') :
    ∃ e, g.estimate (point4 p) = some (some e) ∧ |e' - e| ≤ 9300 * u * N * M := by
  have hk := h.k0
  obtain ⟨e, he, hb⟩ := estimate_accuracy h (h.accurate_bilinear h3 h2) (by linarith) hN hinv hP hfr hbox hloc hsM hM he'
  refine ⟨e, he, hb.trans ?_⟩
  have hMpos : 0 < M := lt_of_lt_of_le h.s0 hsM
  have : 0 ≤ u * N * M := mul_nonneg hk hMpos.le
  linarith

/-- C67. Which locations have a computed estimate: all that are at least `5 u N` cells inside the grid, and none that is at
least `5 u N` cells outside. -/
theorem C67_estimate_defined (h : Precise r u η g.s N) (hinv : |inv - 1 / g.s| ≤ 2 * u / g.s) {loc : Vec4 K}
    (hq : ∀ a, |toGrid loc a| ≤ N * g.s) :
    ((∀ a, 5 * (u * N) * g.s ≤ toGrid loc a ∧ toGrid loc a < (axisCells g.dims a - 5 * (u * N)) * g.s) →
      ∃ e', flEstimate (roundedQuery r norm interp) (g.computed inv toGrid toWorld rotate) loc = .value e') ∧
    ((∃ a, toGrid loc a < -(5 * (u * N)) * g.s ∨ (axisCells g.dims a + 5 * (u * N)) * g.s ≤ toGrid loc a) →
      flEstimate (roundedQuery r norm interp) (g.computed inv toGrid toWorld rotate) loc = .empty) := by
  have hs := h.s0
  have hx : ∀ a, |r (toGrid loc a * inv) - toGrid loc a / g.s| ≤ 5 * (u * N) := fun a => h.index (hq a) hinv
  constructor
  · intro hin
    have hc : CellInGrid (axisCells g.dims) fun a => ⌊r (toGrid loc a * inv)⌋ := by
      intro a
      have h1 := abs_le.1 (hx a)
      have h2 := hin a
      rw [← le_div_iff₀ hs, ← div_lt_iff₀ hs] at h2
      rw [Int.floor_nonneg, Int.floor_lt]
      push_cast
      constructor <;> linarith
    unfold flEstimate
    rw [computed_index]
    dsimp only
    rw [if_pos (show inGrid (g.computed inv toGrid toWorld rotate).dims _ = true from inGrid_axis.2 hc),
      flInterpolate_eq (roundedQuery r norm interp) (g.computed inv toGrid toWorld rotate) hc]
    exact ⟨_, rfl⟩
  · rintro ⟨a, ha⟩
    unfold flEstimate
    rw [computed_index]
    dsimp only
    rw [if_neg]
    intro hg
    have hc := (inGrid_axis (d := g.dims)).1 hg a
    have h1 := abs_le.1 (hx a)
    rw [Int.floor_nonneg, Int.floor_lt] at hc
    push_cast at hc
    rw [← div_lt_iff₀ hs, ← le_div_iff₀ hs] at ha
    rcases ha with ha | ha
    · linarith
    · linarith

/-- The error of rounding to nearest, also for tiny numbers. -/
theorem rne_error_all {p : ℕ} {emin : ℤ} (x : K) : |rne p emin x - x| ≤ 2 ^ (-(p : ℤ)) * |x| + 2 ^ (emin - 1) := by
  by_cases hx : (2 : K) ^ (emin + p - 1) ≤ |x|
  · have := rne_error hx
    have h2 : (0 : K) ≤ 2 ^ (emin - 1) := by positivity
    linarith
  · push Not at hx
    rcases eq_or_ne x 0 with rfl | h0
    · rw [rne_zero]
      simp only [sub_self, abs_zero, mul_zero, zero_add]
      positivity
    have hlog : Int.log 2 |x| < emin + p - 1 := by
      have h1 := Int.zpow_log_le_self (R := K) (b := 2) (by norm_num) (abs_pos.2 h0)
      push_cast at h1
      exact (zpow_lt_zpow_iff_right₀ (by norm_num : (1 : K) < 2)).1 (lt_of_le_of_lt h1 hx)
    have he : lastPlace p emin x = emin := by
      unfold lastPlace; omega
    have h1 : rne p emin x - x = ((roundHalfEven (x / 2 ^ emin) : K) - x / 2 ^ emin) * 2 ^ emin := by
      simp only [rne, sub_mul, he]
      congr 1
      field_simp
    rw [h1, abs_mul, abs_of_pos (a := (2 : K) ^ emin) (by positivity)]
    have h3 : |(roundHalfEven (x / 2 ^ emin) : K) - x / 2 ^ emin| * 2 ^ emin ≤ 1 / 2 * 2 ^ emin := by
      gcongr; exact abs_roundHalfEven_sub _
    have h4 : (2 : K) ^ (emin - 1) = 1 / 2 * 2 ^ emin := by
      rw [zpow_sub₀ (by norm_num), zpow_one]; ring
    have h5 : (0 : K) ≤ 2 ^ (-(p : ℤ)) * |x| := by positivity
    linarith

/-- Binary64 is precise enough for cells of at least `2⁻¹⁰²²` and grids of up to `2⁴³` cells along an axis. -/
theorem precise_double {s N : K} (hs : (2 : K) ^ (-1022 : ℤ) ≤ s) (h1 : 1 ≤ N) (hN : N ≤ 2 ^ 43) :
    Precise roundDouble (2 ^ (-53 : ℤ)) (2 ^ (-1075 : ℤ)) s N where
  err := fun x => rne_error_all (p := 53) (emin := -1074) x
  u0 := by positivity
  eta0 := by positivity
  s0 := lt_of_lt_of_le (by positivity) hs
  one_le := h1
  small := by
    have e : (2 : K) ^ (-53 : ℤ) = 1 / 2 ^ 53 := by rw [zpow_neg, one_div]; norm_cast
    rw [e]
    calc (1 / 2 ^ 53 : K) * N ≤ 1 / 2 ^ 53 * 2 ^ 43 := by gcongr
      _ ≤ 1 / 1000 := by norm_num
  eta := zpow_le_zpow_right₀ (by norm_num) (by norm_num)
  eta_s := by
    rw [show (-1075 : ℤ) = -53 + -1022 by norm_num, zpow_add₀ (by norm_num)]
    gcongr

/-- The inverse cell size computed in binary64. -/
theorem double_inverse {s : K} (hs : (2 : K) ^ (-1022 : ℤ) ≤ s) (hs' : s ≤ 2 ^ (1022 : ℤ)) :
    |roundDouble (1 / s) - 1 / s| ≤ 2 * 2 ^ (-53 : ℤ) / s := by
  have h0 : 0 < s := lt_of_lt_of_le (by positivity) hs
  have h := rne_error_all (p := 53) (emin := -1074) (1 / s)
  rw [abs_of_pos (by positivity : 0 < 1 / s)] at h
  have h2 : (2 : K) ^ (-1074 - 1 : ℤ) ≤ 2 ^ (-53 : ℤ) / s := by
    rw [le_div_iff₀ h0, show (-53 : ℤ) = (-1074 - 1) + 1022 by norm_num, zpow_add₀ (by norm_num)]
    gcongr
  unfold roundDouble
  have e : (2 : K) * 2 ^ (-53 : ℤ) / s = 2 ^ (-((53 : ℕ) : ℤ)) * (1 / s) + 2 ^ (-53 : ℤ) / s := by
    push_cast; ring
  rw [e]
  linarith

/-- C67. In binary64, with the inverse cell size as computed: the error is at most `2⁻⁴⁰ N M`. -/
theorem C67_double_accuracy (hs : (2 : K) ^ (-1022 : ℤ) ≤ g.s) (hs' : g.s ≤ 2 ^ (1022 : ℤ)) (hN43 : N ≤ 2 ^ 43) (h1 : 1 ≤ N)
    (hN : ∀ a, (axisCells g.dims a : K) ≤ N) (hP : Orthogonal g.pose.R)
    {q p : Fin 3 → K} (hfr : InFrame g.pose.R g.pose.t q p) (hbox : InGridBox (axisCells g.dims) g.s q)
    {loc : Vec4 K} (hloc : toGrid loc = q) (hsM : g.s ≤ M)
    (hM : ∀ c, CellInGrid (axisCells g.dims) c → |boundaryDist g.s (stored g.data c)| ≤ M) {e' : K}
    (he' : flEstimate (roundedQuery roundDouble norm (flTrilinear (roundedArith roundDouble)))
      (g.computed (roundDouble (1 / g.s)) toGrid toWorld rotate) loc = .value e') :
    ∃ e, g.estimate (point4 p) = some (some e) ∧ |e' - e| ≤ N * M / 2 ^ 40 := by
  have hp := precise_double hs h1 hN43
  obtain ⟨e, he, hb⟩ := C67_estimate_accuracy hp hN (double_inverse hs hs') hP hfr hbox hloc hsM hM he'
  refine ⟨e, he, hb.trans ?_⟩
  have e53 : (2 : K) ^ (-53 : ℤ) = 1 / 2 ^ 53 := by rw [zpow_neg, one_div]; norm_cast
  have hMpos : 0 < M := lt_of_lt_of_le hp.s0 hsM
  have hNM : 0 < N * M := mul_pos (by linarith) hMpos
  rw [e53]
  have : (4400 : K) * (1 / 2 ^ 53) ≤ 1 / 2 ^ 40 := by norm_num
  calc 4400 * (1 / 2 ^ 53) * N * M = 4400 * (1 / 2 ^ 53) * (N * M) := by ring
    _ ≤ 1 / 2 ^ 40 * (N * M) := by gcongr
    _ = N * M / 2 ^ 40 := by ring

/-- C67. In binary64 with the other formula: at most `2⁻³⁹ N M`. -/
theorem C67_double_accuracy_bilinear (hs : (2 : K) ^ (-340 : ℤ) ≤ g.s) (hs' : g.s ≤ 2 ^ (511 : ℤ)) (hN43 : N ≤ 2 ^ 43) (h1 : 1 ≤ N)
    (hN : ∀ a, (axisCells g.dims a : K) ≤ N) (hP : Orthogonal g.pose.R)
    {q p : Fin 3 → K} (hfr : InFrame g.pose.R g.pose.t q p) (hbox : InGridBox (axisCells g.dims) g.s q)
    {loc : Vec4 K} (hloc : toGrid loc = q) (hsM : g.s ≤ M)
    (hM : ∀ c, CellInGrid (axisCells g.dims) c → |boundaryDist g.s (stored g.data c)| ≤ M) {e' : K}
    (he' : flEstimate (roundedQuery roundDouble norm (flBilinear (roundedArith roundDouble)))
      (g.computed (roundDouble (1 / g.s)) toGrid toWorld rotate) loc = .value e') :
    ∃ e, g.estimate (point4 p) = some (some e) ∧ |e' - e| ≤ N * M / 2 ^ 39 := by
  have hsb : (2 : K) ^ (-1022 : ℤ) ≤ g.s := le_trans (zpow_le_zpow_right₀ (by norm_num) (by norm_num)) hs
  have hsb' : g.s ≤ (2 : K) ^ (1022 : ℤ) := hs'.trans (zpow_le_zpow_right₀ (by norm_num) (by norm_num))
  have hp := precise_double hsb h1 hN43
  have hs0 := hp.s0
  have h3 : (2 : K) ^ (-1075 : ℤ) ≤ 2 ^ (-53 : ℤ) * g.s ^ 3 := by
    have t : ((2 : K) ^ (-340 : ℤ)) ^ 3 ≤ g.s ^ 3 := pow_le_pow_left₀ (by positivity) hs 3
    rw [← zpow_natCast ((2 : K) ^ (-340 : ℤ)), ← zpow_mul] at t
    calc (2 : K) ^ (-1075 : ℤ) ≤ 2 ^ (-53 + -340 * 3 : ℤ) := zpow_le_zpow_right₀ (by norm_num) (by norm_num)
      _ = 2 ^ (-53 : ℤ) * 2 ^ (-340 * 3 : ℤ) := zpow_add₀ (by norm_num) _ _
      _ ≤ 2 ^ (-53 : ℤ) * g.s ^ 3 := by gcongr; exact_mod_cast t
  have h2 : (2 : K) ^ (-1075 : ℤ) ≤ 2 ^ (-53 : ℤ) / g.s ^ 2 := by
    have t : g.s ^ 2 ≤ ((2 : K) ^ (511 : ℤ)) ^ 2 := pow_le_pow_left₀ hs0.le hs' 2
    rw [← zpow_natCast ((2 : K) ^ (511 : ℤ)), ← zpow_mul] at t
    rw [le_div_iff₀ (by positivity)]
    calc (2 : K) ^ (-1075 : ℤ) * g.s ^ 2 ≤ 2 ^ (-1075 : ℤ) * 2 ^ (511 * 2 : ℤ) := by gcongr; exact_mod_cast t
      _ = 2 ^ (-1075 + 511 * 2 : ℤ) := (zpow_add₀ (by norm_num) _ _).symm
      _ ≤ 2 ^ (-53 : ℤ) := zpow_le_zpow_right₀ (by norm_num) (by norm_num)
  obtain ⟨e, he, hb⟩ := C67_estimate_accuracy_bilinear hp h3 h2 hN (double_inverse hsb hsb') hP hfr hbox hloc hsM hM he'
  refine ⟨e, he, hb.trans ?_⟩
  have e53 : (2 : K) ^ (-53 : ℤ) = 1 / 2 ^ 53 := by rw [zpow_neg, one_div]; norm_cast
  have hMpos : 0 < M := lt_of_lt_of_le hp.s0 hsM
  have hNM : 0 < N * M := mul_pos (by linarith) hMpos
  rw [e53]
  have : (9300 : K) * (1 / 2 ^ 53) ≤ 1 / 2 ^ 39 := by norm_num
  calc 9300 * (1 / 2 ^ 53) * N * M = 9300 * (1 / 2 ^ 53) * (N * M) := by ring
    _ ≤ 1 / 2 ^ 39 * (N * M) := by gcongr
    _ = N * M / 2 ^ 39 := by ring

end

section
variable {filled : Idx → Bool} {border : Bool} {g : SDFGrid ℝ} {r : ℝ → ℝ} {u η N M γ inv : ℝ} {norm : (Fin 3 → ℝ) → ℝ}
  {interp : (Fin 3 → ℝ) → (Fin 3 → ℝ) → (Bool → Bool → Bool → ℝ) → (Fin 3 → ℝ) → ℝ}
  {toGrid : Vec4 ℝ → Fin 3 → ℝ} {toWorld rotate : (Fin 3 → ℝ) → Fin 3 → ℝ}

/-- C67. What the computed estimate `e'` of a location `p'` of a generated field says about the space around, rounding included:
no point of a filled cell is nearer than `e'` less `√3 + 3` cell edges, less the rounding error of the estimate, less the
error `dist3 p p'` of the computed grid-frame coordinates. The same for free cells and `-e'`. For the two interpolation
formulas `γ` is `3108 u N` (`Precise.accurate_trilinear`) and `8000 u N` (`Precise.accurate_bilinear`). -/
theorem C67_clear_ball (hg : Generated filled border g) (h : Precise r u η g.s N) (hacc : Accurate interp r u g.s N γ) (hγ : 0 ≤ γ)
    (hN : ∀ a, (axisCells g.dims a : ℝ) ≤ N) (hinv : |inv - 1 / g.s| ≤ 2 * u / g.s)
    {q p p' : Fin 3 → ℝ} (hfr : InFrame g.pose.R g.pose.t q p) (hbox : InGridBox (axisCells g.dims) g.s q)
    {loc : Vec4 ℝ} (hloc : toGrid loc = q) (hsM : g.s ≤ M)
    (hM : ∀ c, CellInGrid (axisCells g.dims) c → |boundaryDist g.s (stored g.data c)| ≤ M) {e' : ℝ}
    (he' : flEstimate (roundedQuery r norm interp) (g.computed inv toGrid toWorld rotate) loc = .value e')
    {o : Fin 3 → ℤ} (ho : CellInGrid (axisCells g.dims) o) {x y : Vec ℝ} (hxy : InFrame g.pose.R g.pose.t x y)
    (hx : InClosedCell g.s o x) :
    (filled (cellIdx o) = true → e' - (Real.sqrt 3 + 3) * g.s - (1188 * (u * N) + 101 / 100 * γ) * M - dist3 p p' ≤ dist3 p' y) ∧
    (filled (cellIdx o) = false → -e' - (Real.sqrt 3 + 3) * g.s - (1188 * (u * N) + 101 / 100 * γ) * M - dist3 p p' ≤ dist3 p' y) := by
  obtain ⟨e, he, hb⟩ := estimate_accuracy h hacc hγ hN hinv hg.pose hfr hbox hloc hsM hM he'
  have hc := C58_clear_ball_everywhere hg hfr he ho hxy hx
  have ht := dist3_triangle p p' y
  have hb := abs_le.1 hb
  constructor <;> intro hfo
  · have := hc.1 hfo; linarith
  · have := hc.2 hfo; linarith

/-- C67. Between the outermost cell centres the margin is `√3 - 1/2` cell edges. -/
theorem C67_clear_ball_inside (hg : Generated filled border g) (h : Precise r u η g.s N) (hacc : Accurate interp r u g.s N γ) (hγ : 0 ≤ γ)
    (hN : ∀ a, (axisCells g.dims a : ℝ) ≤ N) (hinv : |inv - 1 / g.s| ≤ 2 * u / g.s)
    {q p p' : Fin 3 → ℝ} (hfr : InFrame g.pose.R g.pose.t q p) (hbox : InGridBox (axisCells g.dims) g.s q)
    (hin : BetweenCentres (axisCells g.dims) g.s q)
    {loc : Vec4 ℝ} (hloc : toGrid loc = q) (hsM : g.s ≤ M)
    (hM : ∀ c, CellInGrid (axisCells g.dims) c → |boundaryDist g.s (stored g.data c)| ≤ M) {e' : ℝ}
    (he' : flEstimate (roundedQuery r norm interp) (g.computed inv toGrid toWorld rotate) loc = .value e')
    {o : Fin 3 → ℤ} (ho : CellInGrid (axisCells g.dims) o) {x y : Vec ℝ} (hxy : InFrame g.pose.R g.pose.t x y)
    (hx : InClosedCell g.s o x) :
    (filled (cellIdx o) = true → e' - (Real.sqrt 3 - 1 / 2) * g.s - (1188 * (u * N) + 101 / 100 * γ) * M - dist3 p p' ≤ dist3 p' y) ∧
    (filled (cellIdx o) = false → -e' - (Real.sqrt 3 - 1 / 2) * g.s - (1188 * (u * N) + 101 / 100 * γ) * M - dist3 p p' ≤ dist3 p' y) := by
  obtain ⟨e, he, hb⟩ := estimate_accuracy h hacc hγ hN hinv hg.pose hfr hbox hloc hsM hM he'
  have hc := C58_clear_ball hg hfr hin he ho hxy hx
  have ht := dist3_triangle p p' y
  have hb := abs_le.1 hb
  constructor <;> intro hfo
  · have := hc.1 hfo; linarith
  · have := hc.2 hfo; linarith

end

/-! ## Concrete cases -/

/-- Two cells of edge 1/10 (not a binary fraction: 10 is not its computed inverse) with distances 3/10 and -1/10. -/
def exTenth : SDFGrid ℚ :=
  ⟨⟨2, 1, 1⟩, 3602879701896397 / 36028797018963968, ⟨fun i j => if i = j then 1 else 0, fun _ => 0⟩,
    fun i => if i.1 = 0 then 3 / 8 else -1 / 8⟩

/-- Its hypotheses hold with `N = 2`, `M = 1`, and the estimate at 0.0625 along the row is computed; rounding moves it. -/
example : (2 : ℚ) ^ (-1022 : ℤ) ≤ exTenth.s ∧ exTenth.s ≤ 2 ^ (1022 : ℤ) ∧ (∀ a, (axisCells exTenth.dims a : ℚ) ≤ 2) ∧
    Orthogonal exTenth.pose.R ∧ InFrame exTenth.pose.R exTenth.pose.t ![1 / 16, 1 / 16, 1 / 16] ![1 / 16, 1 / 16, 1 / 16] ∧
    InGridBox (axisCells exTenth.dims) exTenth.s ![1 / 16, 1 / 16, 1 / 16] ∧ exTenth.s ≤ 1 ∧
    (∀ c, CellInGrid (axisCells exTenth.dims) c → |boundaryDist exTenth.s (stored exTenth.data c)| ≤ 1) := by
  have hs : exTenth.s = 3602879701896397 / 36028797018963968 := rfl
  have hd : exTenth.dims = ⟨2, 1, 1⟩ := rfl
  have hs0 : (1 / 16 : ℚ) ≤ exTenth.s := by rw [hs]; norm_num
  have hs1 : exTenth.s ≤ 1 / 8 := by rw [hs]; norm_num
  refine ⟨?_, ?_, ?_, ?_, ?_, ?_, ?_, ?_⟩
  · refine le_trans ?_ hs0
    rw [show (1 / 16 : ℚ) = 2 ^ (-4 : ℤ) by norm_num]
    exact zpow_le_zpow_right₀ (by norm_num) (by norm_num)
  · refine hs1.trans ?_
    rw [show (1 / 8 : ℚ) = 2 ^ (-3 : ℤ) by norm_num]
    exact zpow_le_zpow_right₀ (by norm_num) (by norm_num)
  · rw [hd]; intro a; fin_cases a <;> simp [axisCells]
  · constructor <;> intro a b <;> fin_cases a <;> fin_cases b <;> simp [exTenth]
  · intro a; fin_cases a <;> simp [exTenth]
  · rw [hd, hs]; intro a; fin_cases a <;> simp [axisCells] <;> norm_num
  · linarith
  · intro c _
    unfold boundaryDist stored
    have : exTenth.data ((c 0).toNat, (c 1).toNat, (c 2).toNat) = 3 / 8 ∨ exTenth.data ((c 0).toNat, (c 1).toNat, (c 2).toNat) = -1 / 8 := by
      unfold exTenth
      dsimp only
      split_ifs
      · exact Or.inl rfl
      · exact Or.inr rfl
    rcases this with h | h <;> rw [h] <;> norm_num <;> rw [abs_le] <;> constructor <;> linarith

/-- There the computed estimate is 2476979795053773/2⁵³; the exact one is another number. -/
example : (match flEstimate (roundedQuery roundDouble (fun _ => 0) (flTrilinear (roundedArith roundDouble)))
      (exTenth.computed (roundDouble (1 / exTenth.s)) (fun l => l.v) id id) (point4 ![1 / 16, 1 / 16, 1 / 16]) with
      | .value e => some e
      | _ => none) = some (2476979795053773 / 9007199254740992) ∧
    (match flEstimate (roundedQuery roundDouble (fun _ => 0) (flBilinear (roundedArith roundDouble)))
      (exTenth.computed (roundDouble (1 / exTenth.s)) (fun l => l.v) id id) (point4 ![1 / 16, 1 / 16, 1 / 16]) with
      | .value e => some e
      | _ => none) = some (2476979795053773 / 9007199254740992) ∧
    exTenth.estimate (point4 ![1 / 16, 1 / 16, 1 / 16]) = some (some (35697040902426943458954871612375 / 129807421463370697919021812023296)) := by
  refine ⟨?_, ?_, ?_⟩ <;> decide +kernel

/-- The clearance theorem applies to exact arithmetic as well as to binary64. -/
example : Precise (id : ℝ → ℝ) 0 0 1 5 ∧ Precise (roundDouble : ℝ → ℝ) (2 ^ (-53 : ℤ)) (2 ^ (-1075 : ℤ)) 1 5 := by
  refine ⟨⟨?_, le_refl _, le_refl _, one_pos, by norm_num, by norm_num, le_refl _, by norm_num⟩, ?_⟩
  · intro x; simp
  · refine precise_double ?_ (by norm_num) (by norm_num)
    rw [show (1 : ℝ) = 2 ^ (0 : ℤ) by norm_num]
    exact zpow_le_zpow_right₀ (by norm_num) (by norm_num)

end VGT
