import Verif.Lemmas.FairInterp
import Verif.Lemmas.QueryRoundAll

/-!
C86: accuracy of distance estimates in any accurate arithmetic.
-/
set_option autoImplicit false

namespace VGT
open VGT.EDT VGT.Spec

section
variable {F : Type} {A : QueryArith F} {val kept : F → ℝ} {u η s N M : ℝ}

/-- A location whose computed index is in the grid is not far outside. -/
theorem Spec.FairQuery.index_size (h : FairQuery A val kept u η) (hr : FairRoom u η s N) {q inv : F} {n : ℝ} (hn : n ≤ N)
    (hinv : |val inv - 1 / s| ≤ 2 * u / s) (h0 : 0 ≤ kept (A.mul q inv)) (h1 : kept (A.mul q inv) ≤ n) : |val q| ≤ 2 * N * s := by
  have hs := hr.s0
  have hN := hr.one_le
  have hu := hr.u_small
  have heta := hr.eta
  have hi0 : (0 : ℝ) < 1 / s := by positivity
  have pi : Near u 2 (1 / s) (val inv) (1 / s) := ⟨by rw [abs_of_pos hi0], by rw [mul_one_div]; exact hinv⟩
  have hi := abs_le.1 (h.kept_near hr.u0 le_rfl hu pi hr.eta_i (by norm_num) (by norm_num)).2
  have hki : 9 / 10 * (1 / s) ≤ kept inv := by
    have : (2 + 3) * u * (1 / s) ≤ 1 / 10 * (1 / s) := mul_le_mul_of_nonneg_right (by norm_num at hu ⊢; linarith) hi0.le
    linarith [hi.1]
  have shrink : ∀ {a b : ℝ}, |a - b| ≤ u * |b| + η → |b| ≤ 11 / 10 * (|a| + η) := by
    intro a b hab
    have t := abs_sub a (a - b)
    rw [sub_sub_cancel] at t
    have t2 : u * |b| ≤ 1 / 10 ^ 5 * |b| := mul_le_mul_of_nonneg_right hu (abs_nonneg _)
    have := hr.eta0
    have := abs_nonneg a
    norm_num at t2
    linarith
  have x1 := shrink (h.store (A.mul q inv))
  rw [abs_of_nonneg h0] at x1
  have x2 := shrink (a := val (A.mul q inv)) (b := kept q * kept inv) (h.mul q inv)
  have hu' : u ≤ 1 / 100 := hu.trans (by norm_num)
  have x3 : |kept q * kept inv| ≤ 13 / 10 * N := by linarith
  have hki0 : 0 < kept inv := lt_of_lt_of_le (by positivity) hki
  rw [abs_mul, abs_of_pos hki0] at x3
  have x4 : |kept q| * (9 / 10 * (1 / s)) ≤ 13 / 10 * N := (mul_le_mul_of_nonneg_left hki (abs_nonneg _)).trans x3
  have e : |kept q| * (9 / 10 * (1 / s)) * s = 9 / 10 * |kept q| := by field_simp
  have x5 := mul_le_mul_of_nonneg_right x4 hs.le
  rw [e] at x5
  have x6 := shrink (h.store q)
  have x7 : η ≤ 1 / 100 * s := hr.eta_s.trans (mul_le_mul_of_nonneg_right hu' hs.le)
  have : s ≤ N * s := by nlinarith
  linarith

/-- The computed index before the floor. -/
theorem Spec.FairQuery.index_near (h : FairQuery A val kept u η) (hr : FairRoom u η s N) {q inv : F} (hq : |val q| ≤ 2 * N * s)
    (hinv : |val inv - 1 / s| ≤ 2 * u / s) : |kept (A.mul q inv) - val q / s| ≤ 30 * (u * N) := by
  have hs := hr.s0
  have hN := hr.one_le
  have hi0 : (0 : ℝ) < 1 / s := by positivity
  have pi : Near u 2 (1 / s) (val inv) (1 / s) := ⟨by rw [abs_of_pos hi0], by rw [mul_one_div]; exact hinv⟩
  have e : 2 * N * s * (1 / s) = 2 * N := by field_simp
  have p := h.mul_near hr.u0 le_rfl hr.u_small (Near.exact hq) pi (hr.big hr.eta_Ns (by nlinarith)) hr.eta_i (hr.big hr.eta_N (by rw [e]; linarith))
    le_rfl (by norm_num) (by norm_num) (by norm_num)
  rw [e, mul_one_div] at p
  have p2 := h.kept_near hr.u0 le_rfl hr.u_small (p.mono (k' := 12) hr.u0 (by norm_num)) (hr.big hr.eta_N (by linarith)) (by norm_num) (by norm_num)
  refine p2.2.trans (le_of_eq ?_)
  ring

/-- The difference that decides on the cells. -/
theorem Spec.FairQuery.side_near (h : FairQuery A val kept u η) (hr : FairRoom u η s N) {q S : F} (hS : val S = s) (hq : |val q| ≤ 2 * N * s) {j : ℤ}
    (hj : |(j : ℝ)| ≤ N) :
    |kept (A.sub q (A.mul (A.add (A.ofInt j) A.half) S)) - (val q - ((j : ℝ) + 1 / 2) * s)| ≤ 74 * (u * N) * s := by
  have hs := hr.s0
  have hN := hr.one_le
  have hNs := hr.eta_Ns
  have pq : Near u 15 (2 * N * s) (val q) (val q) := (Near.exact hq).mono hr.u0 (by norm_num)
  have p := h.sub_near hr.u0 le_rfl hr.u_small pq (h.centre_near hr hS hj) (hr.big hNs (by nlinarith)) (by norm_num) (by norm_num)
  have p2 := h.kept_near hr.u0 le_rfl hr.u_small p (hr.big hNs (by nlinarith)) (by norm_num) (by norm_num)
  refine p2.2.trans ?_
  have e1 : u * s ≤ u * N * s := mul_le_mul_of_nonneg_right hr.u_le hs.le
  nlinarith [mul_nonneg hr.k0 hs.le]

/-- The computed correction of a stored distance. -/
theorem Spec.FairQuery.towards (h : FairQuery A val kept u η) (hr : FairRoom u η s N) {fg : FlSDF F} (hS : val fg.s = s) {v : F} {d : ℝ}
    (hv : val v = d) (hv' : kept v = d) (hsM : s ≤ M) (hM : |boundaryDist s d| ≤ M) :
    |val (towardsBoundary A fg v) - boundaryDist s d| ≤ 33 * (u * N) * M := by
  have hs := hr.s0
  have hMpos : 0 < M := lt_of_lt_of_le hs hsM
  have eM : η ≤ u * M := hr.big hr.eta_s hsM
  have ps : Near u 0 s (val fg.s) s := by
    rw [hS]
    exact Near.exact (by rw [abs_of_pos hs])
  have ph : Near u 0 1 (val A.half) (1 / 2) := by
    rw [h.half]
    exact Near.exact (by rw [abs_of_pos (by norm_num)]; norm_num)
  have p := h.mul_near hr.u0 le_rfl hr.u_small ps ph hr.eta_s hr.eta_one (by rw [mul_one]; exact hr.eta_s) le_rfl le_rfl (by norm_num) (by norm_num)
  rw [mul_one] at p
  have p' := p.mono (k' := 10) hr.u0 (by norm_num)
  have hd : |d| ≤ 3 / 2 * M := by
    unfold boundaryDist at hM
    split_ifs at hM <;> rw [abs_le] at hM ⊢ <;> constructor <;> linarith [hM.1, hM.2]
  have pv : Near u 10 (3 / 2 * M) (val v) d := by
    rw [hv]
    exact (Near.exact hd).mono hr.u0 (by norm_num)
  have hsum : 13 * u * (3 / 2 * M + s) ≤ 33 * (u * N) * M := by
    have e1 : u * M ≤ u * N * M := mul_le_mul_of_nonneg_right hr.u_le hMpos.le
    have e2 : u * s ≤ u * M := mul_le_mul_of_nonneg_left hsM hr.u0
    have e3 := mul_nonneg hr.u0 hMpos.le
    nlinarith
  unfold towardsBoundary
  rw [h.le, h.zero, hv']
  unfold boundaryDist
  by_cases h0 : 0 ≤ d
  · rw [if_pos (by simpa using h0), if_pos h0]
    have t := h.sub_near hr.u0 le_rfl hr.u_small pv p' (hr.big eM (by linarith)) (by norm_num) (by norm_num)
    rw [mul_one_div] at t
    exact (t.2.trans (by norm_num)).trans hsum
  · rw [if_neg (by simpa using h0), if_neg h0]
    have t := h.add_near hr.u0 le_rfl hr.u_small pv p' (hr.big eM (by linarith)) (by norm_num) le_rfl (by norm_num) (by norm_num)
    rw [mul_one_div] at t
    exact (t.2.trans (by norm_num)).trans hsum

end

section
variable {F : Type} {A : QueryArith F} {val kept : F → ℝ} {u η N M : ℝ} {g : SDFGrid ℝ} {fg : FlSDF F}

/-- The cells picked. -/
theorem fair_pair (h : FairQuery A val kept u η) (hr : FairRoom u η g.s N) (hf : FairField val kept u g fg) {loc : Vec4 F} {a : Fin 3}
    (hN : (axisCells g.dims a : ℝ) ≤ N) {i : IVec} (hidx : A.toInt (A.mul (fg.toGrid loc a) fg.inv) = some (i a))
    (hi : 0 ≤ i a ∧ i a < axisCells g.dims a) :
    |val (fg.toGrid loc a)| ≤ 2 * N * g.s ∧ |kept (A.mul (fg.toGrid loc a) fg.inv) - val (fg.toGrid loc a) / g.s| ≤ 30 * (u * N) ∧
    GoodPair (74 * (u * N)) (val (fg.toGrid loc a) / g.s) (axisCells g.dims a) (flPair A fg loc i a).1 (flPair A fg loc i a).2 := by
  have hs := hr.s0
  have hk := hr.k0
  have hfl := h.toInt _ _ hidx
  have f1 := Int.floor_le (kept (A.mul (fg.toGrid loc a) fg.inv))
  have f2 := Int.lt_floor_add_one (kept (A.mul (fg.toGrid loc a) fg.inv))
  rw [hfl] at f1 f2
  have h0 : (0 : ℝ) ≤ i a := by exact_mod_cast hi.1
  have h1 : (i a : ℝ) + 1 ≤ axisCells g.dims a := by exact_mod_cast hi.2
  have hq := h.index_size hr hN hf.inv (by linarith) (by linarith)
  have hx' := h.index_near hr hq hf.inv
  refine ⟨hq, hx', ?_⟩
  have hx := abs_le.1 hx'
  have hiN : |((i a : ℤ) : ℝ)| ≤ N := by
    rw [abs_of_nonneg h0]
    linarith
  have hside := abs_le.1 (h.side_near hr hf.size hq hiN)
  have hpair : flPair A fg loc i a = flAxisIndices (i a) (axisCells g.dims a)
      (decide (0 ≤ kept (A.sub (fg.toGrid loc a) (A.mul (A.add (A.ofInt (i a)) A.half) fg.s)))) := by
    unfold flPair flCentre
    rw [h.le, h.zero, hf.dims]
  rw [hpair]
  have ht : val (fg.toGrid loc a) = val (fg.toGrid loc a) / g.s * g.s := by field_simp
  rw [ht] at hside
  generalize val (fg.toGrid loc a) / g.s = t at hx hside ⊢
  refine flAxisIndices_good (by linarith) hi.1 hi.2 (by linarith [hx.1, hx.2]) (by linarith [hx.1, hx.2]) ?_ ?_
  · intro hup
    have := of_decide_eq_true hup
    have h3 : ((i a : ℝ) + 1 / 2 - 74 * (u * N)) * g.s ≤ t * g.s := by linarith [hside.1, hside.2]
    exact le_of_mul_le_mul_right h3 hs
  · intro hdn
    have := lt_of_not_ge (of_decide_eq_false hdn)
    have h3 : t * g.s ≤ ((i a : ℝ) + 1 / 2 + 74 * (u * N)) * g.s := by linarith [hside.1, hside.2]
    exact le_of_mul_le_mul_right h3 hs

set_option maxHeartbeats 800000 in
/-- There is a location in the grid, next to the given one, whose exact estimate is near the computed one. -/
theorem fair_estimate (h : FairQuery A val kept u η) (hr : FairRoom u η g.s N) (hf : FairField val kept u g fg) (hint : FormulaInterp A)
    (hN : ∀ a, (axisCells g.dims a : ℝ) ≤ N) {loc : Vec4 F} (hsM : g.s ≤ M)
    (hM : ∀ c, CellInGrid (axisCells g.dims) c → |boundaryDist g.s (stored g.data c)| ≤ M) {e' : F}
    (he' : flEstimate A fg loc = .value e') :
    ∃ q, InGridBox (axisCells g.dims) g.s q ∧ (∀ a, |q a - val (fg.toGrid loc a)| ≤ 60 * (u * N) * g.s) ∧
      |kept e' - interp3 g.s q g.dims g.cval| ≤ 58000 * (u * N) * M := by
  have hs := hr.s0
  have hk := hr.k0
  have hMpos : 0 < M := lt_of_lt_of_le hs hsM
  have hkM0 : 0 ≤ u * N * M := mul_nonneg hk hMpos.le
  have hsm : u * N ≤ 1 / 100000 := hr.small.trans (by norm_num)
  have hkM : u * N * M ≤ 1 / 100000 * M := mul_le_mul_of_nonneg_right hsm hMpos.le
  obtain ⟨i, hidx⟩ : ∃ i, flIndexOf A fg loc = some i := by
    unfold flEstimate at he'
    cases hc : flIndexOf A fg loc with
    | none => rw [hc] at he'; cases he'
    | some i => exact ⟨i, rfl⟩
  have hin : CellInGrid (axisCells g.dims) i := by
    by_contra hc
    unfold flEstimate at he'
    rw [hidx] at he'
    dsimp only at he'
    rw [hf.dims, if_neg (show ¬ inGrid g.dims i = true from fun hg => hc (inGrid_axis.1 hg))] at he'
    cases he'
  have hidx' := (flIndexOf_some A fg).1 hidx
  have hboth := fun a => fair_pair h hr hf (hN a) (hidx' a) (hin a)
  obtain ⟨lo, hlo⟩ : ∃ lo : IVec, lo = fun a => (flPair A fg loc i a).1 := ⟨_, rfl⟩
  obtain ⟨hi', hhi⟩ : ∃ hi' : IVec, hi' = fun a => (flPair A fg loc i a).2 := ⟨_, rfl⟩
  have hgood' : ∀ a, GoodPair (74 * (u * N)) (val (fg.toGrid loc a) / g.s) (axisCells g.dims a) (lo a) (hi' a) := by
    rw [hlo, hhi]; exact fun a => (hboth a).2.2
  have hin' : CellInGrid (axisCells fg.dims) i := by rw [hf.dims]; exact hin
  have hbx : BoxAround (axisCells g.dims) i lo hi' := by
    have := flPair_around A fg (loc := loc) hin'
    rw [hf.dims] at this
    rw [hlo, hhi]; exact this
  have hval : e' = A.interp (fun a => A.mul (A.add (A.ofInt (lo a)) A.half) fg.s) (fun a => A.add (A.mul (A.add (A.ofInt (lo a)) A.half) fg.s) fg.s)
      (fun x y z => towardsBoundary A fg (stored fg.data (corner lo hi' x y z))) (fg.toGrid loc) := by
    unfold flEstimate at he'
    rw [hidx] at he'
    dsimp only at he'
    rw [if_pos (show inGrid fg.dims i = true from inGrid_axis.2 hin'), flInterpolate_eq A fg hin'] at he'
    dsimp only at he'
    injection he' with he'
    rw [← he', hlo, hhi]
    rfl
  -- a location in the grid
  obtain ⟨T, hT⟩ : ∃ T : Fin 3 → ℝ, T = fun a => val (fg.toGrid loc a) / g.s := ⟨_, rfl⟩
  have hTa : ∀ a, val (fg.toGrid loc a) / g.s = T a := fun a => by rw [hT]
  simp only [hTa] at hgood' hboth
  have hrange : ∀ a, -(30 * (u * N)) ≤ T a ∧ T a ≤ axisCells g.dims a + 30 * (u * N) ∧ (u * N = 0 → T a < axisCells g.dims a) := by
    intro a
    have hx := abs_le.1 (hboth a).2.1
    have hfl := h.toInt _ _ (hidx' a)
    have hia := hin a
    rw [← hfl] at hia
    have hia0 := Int.floor_nonneg.1 hia.1
    have hia1 := Int.floor_lt.1 hia.2
    push_cast at hia1
    refine ⟨by linarith, by linarith, fun h0 => ?_⟩
    rw [h0] at hx
    linarith
  have hn1 : ∀ a, (1 : ℝ) ≤ axisCells g.dims a := by
    intro a
    have := hin a
    exact_mod_cast (by omega : 1 ≤ axisCells g.dims a)
  obtain ⟨t', ht0, htn, htd⟩ : ∃ t' : Fin 3 → ℝ, (∀ a, 0 ≤ t' a) ∧ (∀ a, t' a < axisCells g.dims a) ∧ ∀ a, |t' a - T a| ≤ 60 * (u * N) := by
    refine ⟨fun a => max 0 (min (T a) (axisCells g.dims a - 30 * (u * N))), fun a => le_max_left _ _, fun a => ?_, fun a => ?_⟩
    · obtain ⟨h1, h2, h3⟩ := hrange a
      have h4 := hn1 a
      refine max_lt (by linarith) ?_
      rcases eq_or_lt_of_le hk with h0 | h0
      · exact lt_of_le_of_lt (min_le_left _ _) (h3 h0.symm)
      · exact lt_of_le_of_lt (min_le_right _ _) (by linarith)
    · obtain ⟨h1, h2, h3⟩ := hrange a
      have h4 := hn1 a
      rw [abs_le]
      dsimp only
      rcases max_cases 0 (min (T a) (axisCells g.dims a - 30 * (u * N))) with ⟨e, hm⟩ | ⟨e, hm⟩ <;> rw [e] <;>
        rcases min_cases (T a) (axisCells g.dims a - 30 * (u * N)) with ⟨e2, hm2⟩ | ⟨e2, hm2⟩ <;>
        rw [e2] at hm <;> try rw [e2]
      all_goals constructor <;> linarith
  refine ⟨fun a => t' a * g.s, fun a => ⟨mul_nonneg (ht0 a) hs.le, mul_lt_mul_of_pos_right (htn a) hs⟩, fun a => ?_, ?_⟩
  · have e : t' a * g.s - val (fg.toGrid loc a) = (t' a - T a) * g.s := by rw [← hTa a]; field_simp
    rw [e, abs_mul, abs_of_pos hs]
    exact mul_le_mul_of_nonneg_right (htd a) hs.le
  have hq' : ∀ a, t' a * g.s / g.s = t' a := fun a => by field_simp
  obtain ⟨w, hw⟩ : ∃ w : Fin 3 → ℝ, w = fun a => T a - ((lo a : ℝ) + 1 / 2) := ⟨_, rfl⟩
  obtain ⟨w', hw'⟩ : ∃ w' : Fin 3 → ℝ, w' = fun a => t' a - ((lo a : ℝ) + 1 / 2) := ⟨_, rfl⟩
  have hgood2 : ∀ a, GoodPair (134 * (u * N)) (t' a) (axisCells g.dims a) (lo a) (hi' a) := by
    intro a
    have := (hgood' a).shift (htd a)
    rwa [show 74 * (u * N) + 60 * (u * N) = 134 * (u * N) by ring] at this
  have hwb : ∀ a, -1 ≤ w a ∧ w a ≤ 2 := by
    intro a
    rw [hw]
    obtain ⟨h1, h2, _⟩ := hrange a
    exact (hgood' a).weight (by linarith) (by linarith) (by linarith)
  have hwb' : ∀ a, -1 ≤ w' a ∧ w' a ≤ 2 := by
    intro a
    rw [hw']
    have h1 := ht0 a
    have h2 := htn a
    exact (hgood2 a).weight (by linarith) (by linarith) (by linarith)
  have hww : ∀ a, |w a - w' a| ≤ 60 * (u * N) := by
    intro a
    rw [hw, hw']
    have := htd a
    rw [abs_sub_comm] at this
    dsimp only
    rwa [sub_sub_sub_cancel_right]
  have hloN : ∀ a, |((lo a : ℤ) : ℝ)| ≤ N := by
    intro a
    have h1 := hbx.inside a
    have h2 := hbx.adjacent a
    have h0 : (0 : ℝ) ≤ lo a := by exact_mod_cast h1.1
    have h3 : (lo a : ℝ) ≤ axisCells g.dims a := by exact_mod_cast (by omega : lo a ≤ axisCells g.dims a)
    rw [abs_of_nonneg h0]
    exact h3.trans (hN a)
  have hcorr : ∀ x y z, |val (towardsBoundary A fg (stored fg.data (corner lo hi' x y z))) - boundaryDist g.s (stored g.data (corner lo hi' x y z))| ≤
      33 * (u * N) * M := by
    intro x y z
    have hc := corner_in hbx x y z
    obtain ⟨d1, d2⟩ := hf.data _ (cellIdx_in hc)
    exact h.towards hr hf.size d1 d2 hsM (hM _ hc)
  have hV : ∀ x y z, |val (towardsBoundary A fg (stored fg.data (corner lo hi' x y z)))| ≤ 101 / 100 * M := by
    intro x y z
    have h1 := hcorr x y z
    have h2 := hM _ (corner_in hbx x y z)
    have h3 := abs_add_le (val (towardsBoundary A fg (stored fg.data (corner lo hi' x y z))) - boundaryDist g.s (stored g.data (corner lo hi' x y z)))
      (boundaryDist g.s (stored g.data (corner lo hi' x y z)))
    rw [sub_add_cancel] at h3
    linarith
  have b1 : |kept e' - triB w (fun x y z => val (towardsBoundary A fg (stored fg.data (corner lo hi' x y z))))| ≤ 39000 * (u * N) * (101 / 100 * M) := by
    rw [hval]
    have hl := fun a => h.centre_near hr hf.size (hloN a)
    have hh := fun a => h.upper_near hr hf.size (hl a)
    have hq : ∀ a, val (fg.toGrid loc a) = (((lo a : ℤ) : ℝ) + 1 / 2 + w a) * g.s := by
      intro a
      rw [hw]
      dsimp only
      rw [← hTa a]
      field_simp
      ring
    rcases hint with hi | hi <;> rw [hi]
    · exact h.trilinear_near hr hl hh hq (fun a => (hboth a).1) hwb (by linarith) hV
    · exact h.bilinear_near hr hl hh hq (fun a => (hboth a).1) hwb (by linarith) hV
  have b2 := triB_le hwb hcorr
  have bw := triB_weight hwb hwb' hww (v := fun x y z => boundaryDist g.s (stored g.data (corner lo hi' x y z))) (V := M)
    (fun x y z => hM _ (corner_in hbx x y z))
  -- the exact value
  have b3 := lin3_interp hs (by linarith : 0 ≤ 134 * (u * N)) (by linarith) (n := axisCells g.dims) (q := fun a => t' a * g.s)
    (lo := lo) (hi := hi')
    (fun a => by
      rw [hq' a, Int.floor_nonneg, Int.floor_lt]
      exact ⟨ht0 a, by push_cast; exact htn a⟩) (fun a => by rw [hq' a]; exact hgood2 a) (v := g.cval) (V := M) (by
      intro x y z hx hx' hy hy' hz hz'
      have := hM ![x, y, z] (by
        intro a; fin_cases a
        · exact ⟨hx, hx'⟩
        · exact ⟨hy, hy'⟩
        · exact ⟨hz, hz'⟩)
      exact this)
  simp only [hq'] at b3
  have e3 : lin (t' 2) (lo 2) (hi' 2) (fun z => lin (t' 1) (lo 1) (hi' 1) fun y => lin (t' 0) (lo 0) (hi' 0) fun x => g.cval x y z) =
      triB w' (fun x y z => boundaryDist g.s (stored g.data (corner lo hi' x y z))) := by
    rw [hw']
    rfl
  rw [e3] at b3
  obtain ⟨T1, hT1⟩ : ∃ T, T = triB w (fun x y z => val (towardsBoundary A fg (stored fg.data (corner lo hi' x y z)))) := ⟨_, rfl⟩
  obtain ⟨T2, hT2⟩ : ∃ T, T = triB w (fun x y z => boundaryDist g.s (stored g.data (corner lo hi' x y z))) := ⟨_, rfl⟩
  obtain ⟨T3, hT3⟩ : ∃ T, T = triB w' (fun x y z => boundaryDist g.s (stored g.data (corner lo hi' x y z))) := ⟨_, rfl⟩
  have b3' : |T3 - interp3 g.s (fun a => t' a * g.s) g.dims g.cval| ≤ 108 * (134 * (u * N)) * M := by rw [hT3]; exact b3
  rw [← hT1] at b1
  rw [← hT1, ← hT2] at b2
  rw [← hT2, ← hT3] at bw
  generalize interp3 g.s (fun a => t' a * g.s) g.dims g.cval = E at b3' ⊢
  generalize kept e' = e at b1 ⊢
  clear * - b1 b2 bw b3' hkM0
  have c1 := abs_sub_le e T1 T2
  have c2 := abs_sub_le e T2 T3
  have c3 := abs_sub_le e T3 E
  linarith

end

end VGT
