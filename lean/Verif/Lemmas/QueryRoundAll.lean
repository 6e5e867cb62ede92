import Verif.Props.QueryRound

/-!
Accuracy of computed distance estimates at every location that has one, also those moved into the grid by rounding.
-/
set_option autoImplicit false

namespace VGT
open VGT.EDT VGT.Spec

section
variable {K : Type} [Field K] [LinearOrder K] [IsStrictOrderedRing K] [FloorRing K]

theorem GoodPair.shift {ε δ t t' : K} {n : ℕ} {lo hi : ℤ} (h : GoodPair ε t n lo hi) (ht : |t' - t| ≤ δ) :
    GoodPair (ε + δ) t' n lo hi := by
  obtain ⟨h1, h2, h3⟩ := h
  have ht := abs_le.1 ht
  refine ⟨h1, h2, h3.imp id fun ⟨a, b, c⟩ => ⟨a, fun h => ?_, fun h => ?_⟩⟩
  · have := b h; linarith
  · have := c h; linarith

theorem lerp_weight {w w' x y x' y' e δ V : K} (hw' : -1 ≤ w' ∧ w' ≤ 2) (hd : |w - w'| ≤ δ) (hx : |x - x'| ≤ e) (hy : |y - y'| ≤ e)
    (hxV : |x| ≤ V) (hyV : |y| ≤ V) : |(x + w * (y - x)) - (x' + w' * (y' - x'))| ≤ 2 * δ * V + 3 * e := by
  have h1 := lerp_le hw' hx hy
  have h2 : |(w - w') * (y - x)| ≤ δ * (2 * V) := by
    rw [abs_mul]
    have := abs_sub y x
    exact mul_le_mul hd (by linarith) (abs_nonneg _) ((abs_nonneg _).trans hd)
  have h3 := abs_add_le ((w - w') * (y - x)) (x + w' * (y - x) - (x' + w' * (y' - x')))
  rw [show (w - w') * (y - x) + (x + w' * (y - x) - (x' + w' * (y' - x'))) = x + w * (y - x) - (x' + w' * (y' - x')) by ring] at h3
  linarith

/-- Moving the weights. -/
theorem triB_weight {w w' : Fin 3 → K} (hw : ∀ a, -1 ≤ w a ∧ w a ≤ 2) (hw' : ∀ a, -1 ≤ w' a ∧ w' a ≤ 2) {δ : K}
    (hd : ∀ a, |w a - w' a| ≤ δ) {v : Bool → Bool → Bool → K} {V : K} (hv : ∀ x y z, |v x y z| ≤ V) :
    |triB w v - triB w' v| ≤ 54 * δ * V := by
  have e0 : ∀ y z, |(v false y z + w 0 * (v true y z - v false y z)) - (v false y z + w' 0 * (v true y z - v false y z))| ≤ 2 * δ * V := by
    intro y z
    have := lerp_weight (hw' 0) (hd 0) (x := v false y z) (y := v true y z) (x' := v false y z) (y' := v true y z) (e := 0)
      (by simp) (by simp) (hv _ _ _) (hv _ _ _)
    linarith
  have b0 : ∀ y z, |v false y z + w 0 * (v true y z - v false y z)| ≤ 3 * V := fun y z => lerp_bound (hw 0) (hv _ _ _) (hv _ _ _)
  have e1 : ∀ z, _ := fun z => lerp_weight (hw' 1) (hd 1) (e0 false z) (e0 true z) (b0 false z) (b0 true z)
  have b1 : ∀ z, _ := fun z => lerp_bound (hw 1) (b0 false z) (b0 true z)
  have e2 := lerp_weight (hw' 2) (hd 2) (e1 false) (e1 true) (b1 false) (b1 true)
  unfold triB
  linarith

end

section
variable {K : Type} [Field K] [LinearOrder K] [IsStrictOrderedRing K] [FloorRing K]
variable {r : K → K} {u η N M γ : K} {norm : (Fin 3 → K) → K}
  {interp : (Fin 3 → K) → (Fin 3 → K) → (Bool → Bool → Bool → K) → (Fin 3 → K) → K} {g : SDFGrid K} {inv : K}
  {toGrid : Vec4 K → Fin 3 → K} {toWorld rotate : (Fin 3 → K) → Fin 3 → K}

namespace Precise
variable {s : K}

theorem index_wide (h : Precise r u η s N) {q : K} (hq : |q| ≤ 2 * N * s) (hinv : |inv - 1 / s| ≤ 2 * u / s) :
    |r (q * inv) - q / s| ≤ 8 * (u * N) := by
  have hs := h.s0
  have h1 : |q * inv - q / s| ≤ 4 * (u * N) := by
    have : q * inv - q / s = q * (inv - 1 / s) := by ring
    rw [this, abs_mul]
    calc |q| * |inv - 1 / s| ≤ (2 * N * s) * (2 * u / s) := mul_le_mul hq hinv (abs_nonneg _) ((abs_nonneg _).trans hq)
      _ = 4 * (u * N) := by field_simp; ring
  have h2 : |q / s| ≤ 2 * N := by
    rw [abs_div, abs_of_pos hs, div_le_iff₀ hs]
    exact hq
  have h3 := h.near h1
  have h4 : u * (|q / s| + 4 * (u * N)) ≤ u * (2 * N + 4 * (1 / 1000)) :=
    mul_le_mul_of_nonneg_left (by linarith [h.small]) h.u0
  have := h.u_le
  have := h.eta
  have := h.u0
  linarith

/-- A location whose computed index is in the grid is not far outside. -/
theorem index_size (h : Precise r u η s N) {q n : K} (hn : n ≤ N) (hinv : |inv - 1 / s| ≤ 2 * u / s)
    (h0 : 0 ≤ r (q * inv)) (h1 : r (q * inv) ≤ n) : |q| ≤ 2 * N * s := by
  have hs := h.s0
  have hu : u ≤ 1 / 1000 := h.u_le.trans h.small
  have he := h.err (q * inv)
  have hx : |q * inv| ≤ 12 / 10 * N := by
    have t := abs_sub (r (q * inv)) (r (q * inv) - q * inv)
    rw [sub_sub_cancel, abs_of_nonneg h0] at t
    have t2 : u * |q * inv| ≤ 1 / 1000 * |q * inv| := mul_le_mul_of_nonneg_right hu (abs_nonneg _)
    have := h.eta
    have := h.one_le
    linarith
  have hi : 99 / 100 * (1 / s) ≤ inv := by
    have t := (abs_le.1 hinv).1
    have t2 : 2 * u / s ≤ 2 * (1 / 1000) / s := by gcongr
    have t3 : 2 * (1 / 1000) / s = 2 / 1000 * (1 / s) := by ring
    have : 0 < 1 / s := by positivity
    linarith
  have hi0 : 0 < inv := lt_of_lt_of_le (by positivity) hi
  rw [abs_mul, abs_of_pos hi0] at hx
  have hq : |q| * (99 / 100 * (1 / s)) ≤ 12 / 10 * N := (mul_le_mul_of_nonneg_left hi (abs_nonneg _)).trans hx
  have e : |q| * (99 / 100 * (1 / s)) * s = 99 / 100 * |q| := by field_simp
  have hq2 := mul_le_mul_of_nonneg_right hq hs.le
  rw [e] at hq2
  have : 0 < N * s := mul_pos (by linarith [h.one_le]) hs
  linarith

end Precise

/-- The cells picked with rounding, for every location whose computed index is in the grid. -/
theorem Precise.good_pair_wide (h : Precise r u η g.s N) (hinv : |inv - 1 / g.s| ≤ 2 * u / g.s) {loc : Vec4 K} {a : Fin 3}
    (hN : (axisCells g.dims a : K) ≤ N)
    (hi : 0 ≤ ⌊r (toGrid loc a * inv)⌋ ∧ ⌊r (toGrid loc a * inv)⌋ < axisCells g.dims a) :
    |r (toGrid loc a * inv) - toGrid loc a / g.s| ≤ 8 * (u * N) ∧
    GoodPair (10 * (u * N)) (toGrid loc a / g.s) (axisCells g.dims a)
      (flPair (roundedQuery r norm interp) (g.computed inv toGrid toWorld rotate) loc (fun a => ⌊r (toGrid loc a * inv)⌋) a).1
      (flPair (roundedQuery r norm interp) (g.computed inv toGrid toWorld rotate) loc (fun a => ⌊r (toGrid loc a * inv)⌋) a).2 := by
  have hs := h.s0
  have hk := h.k0
  have f1 := Int.floor_le (r (toGrid loc a * inv))
  have f2 := Int.lt_floor_add_one (r (toGrid loc a * inv))
  obtain ⟨i, hii⟩ : ∃ i, i = ⌊r (toGrid loc a * inv)⌋ := ⟨_, rfl⟩
  rw [← hii] at f1 f2 hi
  have h0 : (0 : K) ≤ i := by exact_mod_cast hi.1
  have h1 : (i : K) + 1 ≤ axisCells g.dims a := by exact_mod_cast hi.2
  have hqN : |toGrid loc a| ≤ 2 * N * g.s := h.index_size hN hinv (by linarith) (by linarith)
  have hx' := h.index_wide hqN hinv
  refine ⟨hx', ?_⟩
  have hx := abs_le.1 hx'
  have hiN : |(i : K)| ≤ N := by
    rw [abs_of_nonneg h0]
    linarith
  have hc := abs_le.1 (h.centre hiN)
  have hpair : flPair (roundedQuery r norm interp) (g.computed inv toGrid toWorld rotate) loc (fun a => ⌊r (toGrid loc a * inv)⌋) a =
      flAxisIndices i (axisCells g.dims a) (decide (0 ≤ r (toGrid loc a - r (r (r i + 1 / 2) * g.s)))) := by
    rw [hii]
    rfl
  rw [hpair]
  have ht : toGrid loc a = toGrid loc a / g.s * g.s := by field_simp
  generalize toGrid loc a / g.s = t at hx ht ⊢
  refine flAxisIndices_good (by linarith) hi.1 hi.2 (by linarith [hx.1, hx.2]) (by linarith [hx.1, hx.2]) ?_ ?_
  · intro hup
    have := h.sign_up (of_decide_eq_true hup)
    have h3 : ((i : K) + 1 / 2 - 10 * (u * N)) * g.s ≤ t * g.s := by
      rw [ht] at this
      linarith [hc.1, hc.2]
    exact le_of_mul_le_mul_right h3 hs
  · intro hdn
    have := h.sign_down (lt_of_not_ge (of_decide_eq_false hdn))
    have h3 : t * g.s ≤ ((i : K) + 1 / 2 + 10 * (u * N)) * g.s := by
      rw [ht] at this
      linarith [hc.1, hc.2]
    exact le_of_mul_le_mul_right h3 hs

/-- C67 for every location with a computed estimate, also those that rounding moves into the grid: there is a location in the
grid, next to the given one, whose exact estimate is near the computed one. -/
theorem estimate_accuracy_all (h : Precise r u η g.s N) (hacc : Accurate interp r u g.s N γ) (hγ : 0 ≤ γ)
    (hN : ∀ a, (axisCells g.dims a : K) ≤ N) (hinv : |inv - 1 / g.s| ≤ 2 * u / g.s) {loc : Vec4 K} (hsM : g.s ≤ M)
    (hM : ∀ c, CellInGrid (axisCells g.dims) c → |boundaryDist g.s (stored g.data c)| ≤ M) {e' : K}
    (he' : flEstimate (roundedQuery r norm interp) (g.computed inv toGrid toWorld rotate) loc = .value e') :
    ∃ q, InGridBox (axisCells g.dims) g.s q ∧ (∀ a, |q a - toGrid loc a| ≤ 16 * (u * N) * g.s) ∧
      |e' - interp1 g.s (q 2) g.dims.nz fun z => interp1 g.s (q 1) g.dims.ny fun y => interp1 g.s (q 0) g.dims.nx fun x => g.cval x y z| ≤
        (3780 * (u * N) + 101 / 100 * γ) * M := by
  have hs := h.s0
  have hk := h.k0
  have hMpos : 0 < M := lt_of_lt_of_le hs hsM
  have hkM : u * N * M ≤ 1 / 1000 * M := mul_le_mul_of_nonneg_right h.small hMpos.le
  have hsm := h.small
  set A := roundedQuery r norm interp
  set fg := g.computed inv toGrid toWorld rotate with hfg
  obtain ⟨i, hi⟩ : ∃ i : IVec, i = fun a => ⌊r (toGrid loc a * inv)⌋ := ⟨_, rfl⟩
  have hidx : flIndexOf A fg loc = some i := by rw [hi]; exact computed_index
  have hin : CellInGrid (axisCells g.dims) i := by
    by_contra hc
    unfold flEstimate at he'
    rw [hidx] at he'
    dsimp only at he'
    rw [if_neg (show ¬ inGrid fg.dims i = true from fun hg => hc (inGrid_axis.1 hg))] at he'
    cases he'
  have hboth : ∀ a, |r (toGrid loc a * inv) - toGrid loc a / g.s| ≤ 8 * (u * N) ∧
      GoodPair (10 * (u * N)) (toGrid loc a / g.s) (axisCells g.dims a) (flPair A fg loc i a).1 (flPair A fg loc i a).2 := by
    intro a
    have hia := hin a
    rw [hi] at hia ⊢
    exact h.good_pair_wide hinv (hN a) hia
  obtain ⟨lo, hlo⟩ : ∃ lo : IVec, lo = fun a => (flPair A fg loc i a).1 := ⟨_, rfl⟩
  obtain ⟨hi', hhi⟩ : ∃ hi' : IVec, hi' = fun a => (flPair A fg loc i a).2 := ⟨_, rfl⟩
  have hgood' : ∀ a, GoodPair (10 * (u * N)) (toGrid loc a / g.s) (axisCells g.dims a) (lo a) (hi' a) := by
    rw [hlo, hhi]; exact fun a => (hboth a).2
  have hbx : BoxAround (axisCells g.dims) i lo hi' := by
    rw [hlo, hhi]; exact flPair_around A fg hin
  have hval : e' = A.interp (fun a => r (r (r (lo a) + 1 / 2) * g.s)) (fun a => r (r (r (r (lo a) + 1 / 2) * g.s) + g.s))
      (fun x y z => towardsBoundary A fg (stored g.data (corner lo hi' x y z))) (toGrid loc) := by
    unfold flEstimate at he'
    rw [hidx] at he'
    dsimp only at he'
    rw [if_pos (show inGrid fg.dims i = true from inGrid_axis.2 hin), flInterpolate_eq A fg hin] at he'
    dsimp only at he'
    injection he' with he'
    rw [← he', hlo, hhi]
    rfl
  -- a location in the grid
  have hrange : ∀ a, -(8 * (u * N)) ≤ toGrid loc a / g.s ∧ toGrid loc a / g.s ≤ axisCells g.dims a + 8 * (u * N) ∧
      (u * N = 0 → toGrid loc a / g.s < axisCells g.dims a) := by
    intro a
    have hx := abs_le.1 (hboth a).1
    have hia := hin a
    rw [hi] at hia
    have hia0 := Int.floor_nonneg.1 hia.1
    have hia1 := Int.floor_lt.1 hia.2
    push_cast at hia1
    refine ⟨by linarith, by linarith, fun h0 => ?_⟩
    rw [h0] at hx
    linarith
  have hn1 : ∀ a, (1 : K) ≤ axisCells g.dims a := by
    intro a
    have := hin a
    exact_mod_cast (by omega : 1 ≤ axisCells g.dims a)
  obtain ⟨t', ht0, htn, htd⟩ : ∃ t' : Fin 3 → K, (∀ a, 0 ≤ t' a) ∧ (∀ a, t' a < axisCells g.dims a) ∧
      ∀ a, |t' a - toGrid loc a / g.s| ≤ 16 * (u * N) := by
    refine ⟨fun a => max 0 (min (toGrid loc a / g.s) (axisCells g.dims a - 8 * (u * N))), fun a => le_max_left _ _, fun a => ?_, fun a => ?_⟩
    · obtain ⟨h1, h2, h3⟩ := hrange a
      have h4 := hn1 a
      refine max_lt (by linarith) ?_
      rcases eq_or_lt_of_le hk with h0 | h0
      · exact lt_of_le_of_lt (min_le_left _ _) (h3 h0.symm)
      · exact lt_of_le_of_lt (min_le_right _ _) (by linarith)
    · obtain ⟨h1, h2, h3⟩ := hrange a
      have h4 := hn1 a
      rw [abs_le]
      dsimp only
      rcases max_cases 0 (min (toGrid loc a / g.s) (axisCells g.dims a - 8 * (u * N))) with ⟨e, hm⟩ | ⟨e, hm⟩ <;> rw [e] <;>
        rcases min_cases (toGrid loc a / g.s) (axisCells g.dims a - 8 * (u * N)) with ⟨e2, hm2⟩ | ⟨e2, hm2⟩ <;>
        rw [e2] at hm <;> try rw [e2]
      all_goals constructor <;> linarith
  refine ⟨fun a => t' a * g.s, fun a => ⟨mul_nonneg (ht0 a) hs.le, mul_lt_mul_of_pos_right (htn a) hs⟩, fun a => ?_, ?_⟩
  · have e : t' a * g.s - toGrid loc a = (t' a - toGrid loc a / g.s) * g.s := by field_simp
    rw [e, abs_mul, abs_of_pos hs]
    exact mul_le_mul_of_nonneg_right (htd a) hs.le
  have hq' : ∀ a, t' a * g.s / g.s = t' a := fun a => by field_simp
  obtain ⟨w, hw⟩ : ∃ w : Fin 3 → K, w = fun a => toGrid loc a / g.s - ((lo a : K) + 1 / 2) := ⟨_, rfl⟩
  obtain ⟨w', hw'⟩ : ∃ w' : Fin 3 → K, w' = fun a => t' a - ((lo a : K) + 1 / 2) := ⟨_, rfl⟩
  have hgood2 : ∀ a, GoodPair (26 * (u * N)) (t' a) (axisCells g.dims a) (lo a) (hi' a) := by
    intro a
    have := (hgood' a).shift (htd a)
    rwa [show 10 * (u * N) + 16 * (u * N) = 26 * (u * N) by ring] at this
  have hwb : ∀ a, -1 ≤ w a ∧ w a ≤ 2 := by
    intro a
    rw [hw]
    obtain ⟨h1, h2, _⟩ := hrange a
    exact (hgood' a).weight (by linarith) (by linarith) (by linarith)
  have hwb' : ∀ a, -1 ≤ w' a ∧ w' a ≤ 2 := by
    intro a
    rw [hw']
    have h1 := ht0 a
    have h2 := htn a
    exact (hgood2 a).weight (by linarith) (by linarith) (by linarith)
  have hww : ∀ a, |w a - w' a| ≤ 16 * (u * N) := by
    intro a
    rw [hw, hw']
    have := htd a
    rw [abs_sub_comm] at this
    dsimp only
    rwa [sub_sub_sub_cancel_right]
  have hloN : ∀ a, |((lo a : ℤ) : K)| ≤ N := by
    intro a
    have h1 := hbx.inside a
    have h2 := hbx.adjacent a
    have h0 : (0 : K) ≤ lo a := by exact_mod_cast h1.1
    have h3 : (lo a : K) ≤ axisCells g.dims a := by exact_mod_cast (by omega : lo a ≤ axisCells g.dims a)
    rw [abs_of_nonneg h0]
    exact h3.trans (hN a)
  have hcorr : ∀ x y z, |towardsBoundary A fg (stored g.data (corner lo hi' x y z)) - boundaryDist g.s (stored g.data (corner lo hi' x y z))| ≤
      4 * (u * N) * M := fun x y z => h.towards rfl hsM (hM _ (corner_in hbx x y z))
  have hV : ∀ x y z, |towardsBoundary A fg (stored g.data (corner lo hi' x y z))| ≤ 101 / 100 * M := by
    intro x y z
    have h1 := hcorr x y z
    have h2 := hM _ (corner_in hbx x y z)
    have h3 := abs_add_le (towardsBoundary A fg (stored g.data (corner lo hi' x y z)) - boundaryDist g.s (stored g.data (corner lo hi' x y z)))
      (boundaryDist g.s (stored g.data (corner lo hi' x y z)))
    rw [sub_add_cancel] at h3
    linarith
  have b1 : |e' - triB w (fun x y z => towardsBoundary A fg (stored g.data (corner lo hi' x y z)))| ≤ γ * (101 / 100 * M) := by
    rw [hval]
    refine hacc (fun a => (lo a : K)) _ (toGrid loc) w _ _ hloN (fun a => h.centre (hloN a)) ?_ hwb (by linarith) hV
    intro a
    rw [hw]
    field_simp
    ring
  have b2 := triB_le hwb hcorr
  have bw := triB_weight hwb hwb' hww (v := fun x y z => boundaryDist g.s (stored g.data (corner lo hi' x y z))) (V := M)
    (fun x y z => hM _ (corner_in hbx x y z))
  -- the exact value
  have b3 := lin3_interp hs (by linarith : 0 ≤ 26 * (u * N)) (by linarith) (n := axisCells g.dims) (q := fun a => t' a * g.s)
    (lo := lo) (hi := hi')
    (fun a => by
      rw [hq' a, Int.floor_nonneg, Int.floor_lt]
      exact ⟨ht0 a, by push_cast; exact htn a⟩) (fun a => by rw [hq' a]; exact hgood2 a) (v := g.cval) (V := M) (by
      intro x y z hx hx' hy hy' hz hz'
      have := hM ![x, y, z] (by
        intro a; fin_cases a
        · exact ⟨hx, hx'⟩
        · exact ⟨hy, hy'⟩
        · exact ⟨hz, hz'⟩)
      exact this)
  simp only [hq'] at b3
  have e3 : lin (t' 2) (lo 2) (hi' 2) (fun z => lin (t' 1) (lo 1) (hi' 1) fun y => lin (t' 0) (lo 0) (hi' 0) fun x => g.cval x y z) =
      triB w' (fun x y z => boundaryDist g.s (stored g.data (corner lo hi' x y z))) := by
    rw [hw']
    rfl
  rw [e3] at b3
  obtain ⟨T1, hT1⟩ : ∃ T, T = triB w (fun x y z => towardsBoundary A fg (stored g.data (corner lo hi' x y z))) := ⟨_, rfl⟩
  obtain ⟨T2, hT2⟩ : ∃ T, T = triB w (fun x y z => boundaryDist g.s (stored g.data (corner lo hi' x y z))) := ⟨_, rfl⟩
  obtain ⟨T3, hT3⟩ : ∃ T, T = triB w' (fun x y z => boundaryDist g.s (stored g.data (corner lo hi' x y z))) := ⟨_, rfl⟩
  have b3' : |T3 - (interp1 g.s (t' 2 * g.s) g.dims.nz fun z => interp1 g.s (t' 1 * g.s) g.dims.ny fun y =>
      interp1 g.s (t' 0 * g.s) g.dims.nx fun x => g.cval x y z)| ≤ 108 * (26 * (u * N)) * M := by rw [hT3]; exact b3
  rw [← hT1] at b1
  rw [← hT1, ← hT2] at b2
  rw [← hT2, ← hT3] at bw
  generalize (interp1 g.s (t' 2 * g.s) g.dims.nz fun z => interp1 g.s (t' 1 * g.s) g.dims.ny fun y =>
      interp1 g.s (t' 0 * g.s) g.dims.nx fun x => g.cval x y z) = E at b3' ⊢
  have c1 := abs_sub_le e' T1 T2
  have c2 := abs_sub_le e' T2 T3
  have c3 := abs_sub_le e' T3 E
  linarith

end

end VGT
