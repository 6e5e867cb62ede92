import Verif.Props.RayRound

/-!
C73: the computed entry into the grid does not lie behind any cell the ray passes deeply.
-/
set_option autoImplicit false

namespace VGT
open VGT.EDT VGT.Spec

section
variable {R : ℚ → Fl} {u η M s n N E : ℚ} {g : RayGrid Fl} {o p : Fin 3 → ℚ} {L : ℚ}

/-- The precision is sufficient for the thresholds of `1e-10`. -/
structure EntryScale (u η M s n N E : ℚ) : Prop where
  scale : RayScale u η M s n N E
  n_ge : 24 ≤ n
  η_le : 10 ^ 24 * η ≤ u
  M_ge : 10 ^ 12 * (1 + n * s) ≤ M

theorem EntryScale.u_le (h : EntryScale u η M s n N E) : 24 * 3000 * u ≤ 1 := by
  have h1 := h.scale.un_le
  have := mul_le_mul_of_nonneg_left h.n_ge h.scale.u_pos.le
  linarith

theorem EntryScale.us_le (h : EntryScale u η M s n N E) : 24 * (u * s) ≤ u * n * s := by
  have := mul_le_mul_of_nonneg_right h.n_ge (mul_pos h.scale.u_pos h.scale.s_pos).le
  linarith

/-- `flat_threshold` and `nudge` after rounding. -/
theorem tiny_near (h : EntryScale u η M s n N E) (hR : Rounds R u η M) :
    ∃ y, R (1 / 10 ^ 10) = .fin y ∧ 9 / 10 ^ 11 ≤ y ∧ y ≤ 11 / 10 ^ 11 := by
  have hu := h.scale.u_pos; have hu1 := h.u_le; have hη := h.η_le; have hη0 := h.scale.η_nonneg
  have hM := h.M_ge
  have hns : 0 < n * s := mul_pos (by linarith [h.n_ge]) h.scale.s_pos
  rcases hR (1 / 10 ^ 10) with ⟨y, e1, e2⟩ | ⟨-, e⟩ | ⟨-, e⟩
  · have e3 : |(1 / 10 ^ 10 : ℚ)| = 1 / 10 ^ 10 := abs_of_pos (by norm_num)
    rw [e3] at e2
    have := abs_le.1 e2
    exact ⟨y, e1, by linarith, by linarith⟩
  · exfalso; linarith
  · exfalso; linarith

/-- The computed direction along an axis, `ds` the exact one. -/
theorem dir_near (h : EntryScale u η M s n N E) (hR : Rounds R u η M) {r D len : ℚ} (hlen : 1 / 10 ^ 10 ≤ len)
    (hr : |r - D| ≤ u * |D| + η) (hD : |D| ≤ 2 * len) :
    ∃ d, Fl.divR R (.fin r) (.fin len) = .fin d ∧ |d - D / len| ≤ 5 / 2 * (u * |D / len|) + 1 / 10 ^ 13 * u ∧ |D / len| ≤ 2 := by
  have hu := h.scale.u_pos; have hu1 := h.u_le; have hη := h.η_le; have hη0 := h.scale.η_nonneg
  have hM := h.M_ge
  have hns : 0 < n * s := mul_pos (by linarith [h.n_ge]) h.scale.s_pos
  have hlen0 : 0 < len := lt_of_lt_of_le (by norm_num) hlen
  have hds : |D / len| = |D| / len := by rw [abs_div, abs_of_pos hlen0]
  have hd2 : |D / len| ≤ 2 := by rw [hds, div_le_iff₀ hlen0]; exact hD
  have hηl : η / len ≤ 1 / 10 ^ 14 * u := by
    rw [div_le_iff₀ hlen0]
    have := mul_le_mul_of_nonneg_left hlen (show 0 ≤ 1 / 10 ^ 14 * u by positivity)
    linarith
  have hrl : |r / len - D / len| ≤ u * |D / len| + 1 / 10 ^ 14 * u := by
    rw [← sub_div, abs_div, abs_of_pos hlen0, hds]
    calc |r - D| / len ≤ (u * |D| + η) / len := by gcongr
      _ = u * (|D| / len) + η / len := by ring
      _ ≤ _ := by linarith
  have hrl' : |r / len| ≤ |D / len| + (u * |D / len| + 1 / 10 ^ 14 * u) := by
    have := abs_sub_abs_le_abs_sub (r / len) (D / len)
    linarith
  have hdiv : Fl.divR R (.fin r) (.fin len) = R (r / len) := by
    show (if len = 0 then _ else _) = _
    rw [if_neg hlen0.ne']
  have hP := abs_nonneg (D / len)
  have h1 := mul_le_mul_of_nonneg_right hu1 (mul_nonneg hu.le hP)
  have h2 := mul_le_mul_of_nonneg_left hrl' hu.le
  have h3 := mul_le_mul_of_nonneg_right hu1 hu.le
  have h5 := mul_le_mul_of_nonneg_right hu1 hP
  have hb : |r / len| ≤ 3 := by linarith
  have hb' := abs_le.1 hb
  rcases hR (r / len) with ⟨d, e1, e2⟩ | ⟨-, e⟩ | ⟨-, e⟩
  · refine ⟨d, hdiv.trans e1, ?_, hd2⟩
    have h6 := mul_nonneg hu.le hP
    have h4 : d - D / len = (d - r / len) + (r / len - D / len) := by ring
    rw [h4]
    refine (abs_add_le _ _).trans ?_
    linarith
  · exfalso; linarith
  · exfalso; linarith

/-- The reciprocal of a direction that is not flat. -/
theorem recip_near (h : EntryScale u η M s n N E) (hR : Rounds R u η M) {d ds : ℚ} (hd : 9 / 10 ^ 11 ≤ |d|)
    (hds : |d - ds| ≤ 5 / 2 * (u * |ds|) + 1 / 10 ^ 13 * u) (hds2 : |ds| ≤ 2) :
    ds ≠ 0 ∧ ∃ v, Fl.divR R (.fin 1) (.fin d) = .fin v ∧ |v * ds - 1| ≤ 5 * u ∧ |v| ≤ 2 * 10 ^ 10 := by
  have hu := h.scale.u_pos; have hu1 := h.u_le; have hη := h.η_le; have hη0 := h.scale.η_nonneg
  have hM := h.M_ge
  have hns : 0 < n * s := mul_pos (by linarith [h.n_ge]) h.scale.s_pos
  have hd0 : 0 < |d| := lt_of_lt_of_le (by norm_num) hd
  have hdne : d ≠ 0 := abs_pos.1 hd0
  have hP := abs_nonneg ds
  have a1 := abs_sub_abs_le_abs_sub d ds
  have a2 := abs_sub_abs_le_abs_sub ds d
  rw [abs_sub_comm] at a2
  have h5 := mul_le_mul_of_nonneg_right hu1 hP
  have hds0 : 8 / 10 ^ 11 ≤ |ds| := by linarith
  have hrel : |d - ds| ≤ 3 * (u * |ds|) := by
    have := mul_le_mul_of_nonneg_left hds0 hu.le
    linarith
  have hdiv : Fl.divR R (.fin 1) (.fin d) = R (1 / d) := by
    show (if d = 0 then _ else _) = _
    rw [if_neg hdne]
  have hinv : |1 / d| = 1 / |d| := by rw [abs_div, abs_one]
  have hinvle : 1 / |d| ≤ 12 * 10 ^ 9 := by
    rw [div_le_iff₀ hd0]
    linarith
  have hb := abs_le.1 (hinv.le.trans hinvle)
  refine ⟨fun h0 => by rw [h0, abs_zero] at hds0; norm_num at hds0, ?_⟩
  rcases hR (1 / d) with ⟨v, e1, e2⟩ | ⟨-, e⟩ | ⟨-, e⟩
  · refine ⟨v, hdiv.trans e1, ?_, ?_⟩
    · rw [hinv] at e2
      have hvd : |v * d - 1| ≤ 11 / 10 * u := by
        have e3 : v * d - 1 = (v - 1 / d) * d := by field_simp
        rw [e3, abs_mul]
        have h6 := mul_le_mul_of_nonneg_right e2 hd0.le
        have h7 : (u * (1 / |d|) + η) * |d| = u + η * |d| := by field_simp
        have h8 : |d| ≤ 3 := by linarith
        have h9 := mul_le_mul_of_nonneg_left h8 hη0
        linarith
      have hvd' := abs_le.1 hvd
      have hvabs : |v| * |d| ≤ 1 + 11 / 10 * u := by
        rw [← abs_mul, abs_le]
        constructor <;> linarith
      have hdd : |ds| ≤ 11 / 10 * |d| := by linarith
      have h10 : |v| * |ds| ≤ 6 / 5 := by
        have := mul_le_mul_of_nonneg_left hdd (abs_nonneg v)
        linarith
      have h11 : |v * (ds - d)| ≤ 18 / 5 * u := by
        rw [abs_mul, abs_sub_comm]
        have h12 := mul_le_mul_of_nonneg_left hrel (abs_nonneg v)
        have h13 := mul_le_mul_of_nonneg_left h10 hu.le
        linarith
      have e4 : v * ds - 1 = v * (ds - d) + (v * d - 1) := by ring
      rw [e4]
      refine (abs_add_le _ _).trans ?_
      linarith
    · rw [hinv] at e2
      have := abs_sub_abs_le_abs_sub v (1 / d)
      rw [hinv] at this
      have h14 := mul_le_mul_of_nonneg_left hinvle hu.le
      linarith
  · exfalso; linarith
  · exfalso; linarith

/-- The computed time to a plane. -/
theorem plane_near (h : EntryScale u η M s n N E) (hR : Rounds R u η M) {z v ds : ℚ} (hz : 4 * |z| ≤ n * s + s) (hv : |v * ds - 1| ≤ 5 * u)
    (hv' : |v| ≤ 2 * 10 ^ 10) (hds2 : |ds| ≤ 2) :
    ∃ t, Fl.mulR R (R z) (.fin v) = .fin t ∧ |t * ds - z| ≤ 3 * (u * n * s) := by
  have hu := h.scale.u_pos; have hu1 := h.u_le; have hη := h.η_le; have hη0 := h.scale.η_nonneg
  have hM := h.M_ge
  have hs := h.scale.s_pos
  have hηs := h.scale.η_le_s
  have hus := h.us_le
  have hns : 24 * s ≤ n * s := mul_le_mul_of_nonneg_right h.n_ge hs.le
  have hz1 : |z| ≤ n * s := by linarith
  have hz' := abs_le.1 hz1
  obtain ⟨a, e1, b1⟩ : ∃ a, R z = .fin a ∧ |a - z| ≤ u * |z| + η := by
    rcases hR z with h1 | ⟨-, h1⟩ | ⟨-, h1⟩
    · exact h1
    · exfalso; linarith
    · exfalso; linarith
  have ha : |a| ≤ |z| + (u * |z| + η) := by
    have := abs_sub_abs_le_abs_sub a z
    linarith
  have huz := mul_le_mul_of_nonneg_right hu1 (abs_nonneg z)
  have hηs' : η ≤ s := by
    have := mul_le_mul_of_nonneg_right hu1 hs.le
    linarith
  have hav : |a * v| ≤ M := by
    rw [abs_mul]
    have h1 : |a| ≤ 3 * (n * s) := by linarith
    have := mul_le_mul h1 hv' (abs_nonneg v) (by linarith)
    linarith
  have hav' := abs_le.1 hav
  obtain ⟨t, e2, b2⟩ : ∃ t, R (a * v) = .fin t ∧ |t - a * v| ≤ u * |a * v| + η := by
    rcases hR (a * v) with h1 | ⟨-, h1⟩ | ⟨-, h1⟩
    · exact h1
    · exfalso; linarith
    · exfalso; linarith
  refine ⟨t, ?_, ?_⟩
  · rw [e1]; exact e2
  · have e3 : t * ds - z = (t - a * v) * ds + (a * (v * ds - 1) + (a - z)) := by ring
    have h1 : |(t - a * v) * ds| ≤ (u * |a * v| + η) * |ds| := by
      rw [abs_mul]
      exact mul_le_mul_of_nonneg_right b2 (abs_nonneg _)
    have h2 : |a * (v * ds - 1)| ≤ |a| * (5 * u) := by
      rw [abs_mul]
      exact mul_le_mul_of_nonneg_left hv (abs_nonneg _)
    have h3 : |v * ds| ≤ 1 + 5 * u := by
      have := abs_sub_abs_le_abs_sub (v * ds) 1
      rw [abs_one] at this
      linarith
    have h4 : |a * v| * |ds| ≤ |a| * (1 + 5 * u) := by
      rw [abs_mul, mul_assoc, ← abs_mul v ds]
      exact mul_le_mul_of_nonneg_left h3 (abs_nonneg _)
    have h5 := mul_le_mul_of_nonneg_left h4 hu.le
    have h6 := mul_le_mul_of_nonneg_left hds2 hη0
    have h7 := mul_le_mul_of_nonneg_right hu1 (mul_nonneg hu.le (abs_nonneg a))
    have h8 := mul_le_mul_of_nonneg_left ha hu.le
    have h9 := mul_le_mul_of_nonneg_right hu1 (mul_nonneg hu.le (abs_nonneg z))
    have h10 := mul_le_mul_of_nonneg_right hu1 hη0
    have h11 := mul_le_mul_of_nonneg_left hz hu.le
    rw [e3]
    refine (abs_add_le _ _).trans (le_trans (add_le_add h1 ((abs_add_le _ _).trans (add_le_add h2 b1))) ?_)
    linarith

/-- Times to the planes around the time of a point deep between them. -/
theorem axis_times {w κ x S ds tl th t : ℚ} (hds : ds ≠ 0) (hds2 : |ds| ≤ 2) (hl : |tl * ds - (0 - x)| ≤ w) (hh : |th * ds - (S - x)| ≤ w)
    (hκ : w < κ) (h1 : κ ≤ x + t * ds) (h2 : x + t * ds ≤ S - κ) :
    (tl ≤ th → tl + (κ - w) / 2 ≤ t ∧ t ≤ th) ∧ (¬ tl ≤ th → th + (κ - w) / 2 ≤ t ∧ t ≤ tl) := by
  have l' := abs_le.1 hl
  have h' := abs_le.1 hh
  have d' := abs_le.1 hds2
  rcases lt_or_gt_of_ne hds with hneg | hpos
  · have b1 : κ - w ≤ (t - th) * (-ds) := by nlinarith
    have b2 : κ - w ≤ (tl - t) * (-ds) := by nlinarith
    have c1 : 0 < t - th := by
      by_contra hc
      have := mul_nonpos_of_nonpos_of_nonneg (not_lt.1 hc) (neg_pos.2 hneg).le
      linarith
    have c2 : 0 < tl - t := by
      by_contra hc
      have := mul_nonpos_of_nonpos_of_nonneg (not_lt.1 hc) (neg_pos.2 hneg).le
      linarith
    have c3 : (t - th) * (-ds) ≤ (t - th) * 2 := mul_le_mul_of_nonneg_left (by linarith) c1.le
    exact ⟨fun h => by exfalso; linarith, fun _ => ⟨by linarith, by linarith⟩⟩
  · have b1 : κ - w ≤ (t - tl) * ds := by nlinarith
    have b2 : κ - w ≤ (th - t) * ds := by nlinarith
    have c1 : 0 < t - tl := by
      by_contra hc
      have := mul_nonpos_of_nonpos_of_nonneg (not_lt.1 hc) hpos.le
      linarith
    have c2 : 0 < th - t := by
      by_contra hc
      have := mul_nonpos_of_nonpos_of_nonneg (not_lt.1 hc) hpos.le
      linarith
    have c3 : (t - tl) * ds ≤ (t - tl) * 2 := mul_le_mul_of_nonneg_left (by linarith) c1.le
    exact ⟨fun _ => ⟨by linarith, by linarith⟩, fun h => by exfalso; exact h (by linarith)⟩

/-- Not before the time `t`. -/
def FlBeyond (t : ℚ) : Fl → Prop
  | .fin q => t ≤ q
  | .ninf => False
  | _ => True

/-- The interval of the slab loop starts at `0` or at least `k` before `t`, and does not end before `t`. -/
def SlabAround (t k : ℚ) (st : Fl × Fl) : Prop := (∃ m, st.1 = .fin m ∧ (m = 0 ∨ m + k ≤ t)) ∧ FlBeyond t st.2

theorem slabAround_step {t k t1 t2 : ℚ} {st : Fl × Fl} (hst : SlabAround t k st) (hk : 0 ≤ k) (ht : 0 ≤ t) (h1 : t1 + k ≤ t) (h2 : t ≤ t2) :
    SlabAround t k (if Fl.lt st.1 (.fin t1) then .fin t1 else st.1, if Fl.lt st.2 (.fin t2) then .fin t2 else st.2) ∧
      Fl.lt (if Fl.lt st.2 (.fin t2) then .fin t2 else st.2) (if Fl.lt st.1 (.fin t1) then .fin t1 else st.1) = false := by
  obtain ⟨⟨m, e1, hm⟩, hb⟩ := hst
  have hmt : m ≤ t := by rcases hm with rfl | hm <;> linarith
  have key : SlabAround t k (if Fl.lt st.1 (.fin t1) then .fin t1 else st.1, if Fl.lt st.2 (.fin t2) then .fin t2 else st.2) := by
    constructor
    · dsimp only
      split_ifs
      · exact ⟨t1, rfl, .inr h1⟩
      · exact ⟨m, e1, hm⟩
    · dsimp only
      split_ifs
      · exact h2
      · exact hb
  refine ⟨key, ?_⟩
  obtain ⟨⟨m', e', hm'⟩, hb'⟩ := key
  dsimp only at e' hb'
  rw [e']
  have hmt' : m' ≤ t := by rcases hm' with rfl | hm' <;> linarith
  generalize (if Fl.lt st.2 (.fin t2) then Fl.fin t2 else st.2) = q at hb' ⊢
  rcases q with _ | _ | q | _
  · rfl
  · exact absurd hb' id
  · have : t ≤ q := hb'
    show decide (q < m') = false
    simp only [decide_eq_false_iff_not, not_lt]
    linarith
  · rfl

/-- The start of the interval never decreases. -/
def SlabGrows (st st' : Fl × Fl) : Prop := ∀ m m', st.1 = .fin m → st'.1 = .fin m' → m ≤ m'

/-- `e` after the start of the interval the ray is between the planes, if it is not too flat or the sensor lies between
them. -/
def SlabEnters (w κ t x S ds : ℚ) (st : Fl × Fl) : Prop :=
  ∀ m e T, st.1 = .fin m → e ≤ 1 / 10 ^ 10 → (7 * w ≤ e * |ds| ∨ κ ≤ x ∧ x ≤ S - κ) → m + e ≤ T → 0 ≤ T → T ≤ t →
    3 * w ≤ x + T * ds ∧ x + T * ds ≤ S - 3 * w

theorem slabGrows_step {t1 : ℚ} {st : Fl × Fl} {q : Fl} : SlabGrows st (if Fl.lt st.1 (.fin t1) then .fin t1 else st.1, q) := by
  intro m m' e1 e2
  dsimp only at e2
  rw [e1] at e2
  by_cases h : m < t1
  · have : Fl.lt (.fin m) (.fin t1) = true := decide_eq_true h
    rw [this, if_pos rfl] at e2
    cases e2
    exact h.le
  · have : Fl.lt (.fin m) (.fin t1) = false := decide_eq_false h
    rw [this, if_neg (by decide)] at e2
    cases e2
    exact le_rfl

theorem slab_start_ge {t1 m : ℚ} {f : Fl} (hf : ∃ m0, f = .fin m0) (h : (if Fl.lt f (.fin t1) then Fl.fin t1 else f) = .fin m) : t1 ≤ m := by
  obtain ⟨m0, rfl⟩ := hf
  by_cases h1 : m0 < t1
  · have : Fl.lt (.fin m0) (.fin t1) = true := decide_eq_true h1
    rw [this, if_pos rfl] at h
    cases h
    exact le_rfl
  · have : Fl.lt (.fin m0) (.fin t1) = false := decide_eq_false h1
    rw [this, if_neg (by decide)] at h
    cases h
    exact not_lt.1 h1

theorem slabEnters_step {w κ x S ds tl th t t1 : ℚ} {f q : Fl} (hf : ∃ m0, f = .fin m0) (hds : ds ≠ 0) (hds2 : |ds| ≤ 2)
    (hl : |tl * ds - (0 - x)| ≤ 4 * w) (hh : |th * ds - (S - x)| ≤ 4 * w)
    (hκ : 6 * w + 4 / 10 ^ 10 ≤ κ) (hw : 0 < w) (h1 : κ ≤ x + t * ds) (h2 : x + t * ds ≤ S - κ) (ht1 : t1 = tl ∧ tl ≤ th ∨ t1 = th ∧ ¬ tl ≤ th) :
    SlabEnters w κ t x S ds (if Fl.lt f (.fin t1) then .fin t1 else f, q) := by
  intro m e T em he hst hmT hT0 hTt
  dsimp only at em
  have hm := slab_start_ge hf em
  have htimes := axis_times hds hds2 hl hh (by linarith) h1 h2
  have l' := abs_le.1 hl
  have h' := abs_le.1 hh
  rcases lt_or_gt_of_ne hds with hneg | hpos
  · have hab : |ds| = -ds := abs_of_neg hneg
    rw [hab] at hst hds2
    have hTd : T * (-ds) ≤ t * (-ds) := mul_le_mul_of_nonneg_right hTt (by linarith)
    have hT0d : 0 ≤ T * (-ds) := mul_nonneg hT0 (by linarith)
    refine ⟨by linarith, ?_⟩
    rcases hst with hst | hst
    · have ht : t1 = th := by
        rcases ht1 with ⟨-, hle⟩ | ⟨h3, -⟩
        · exfalso
          have b1 := (htimes.1 hle)
          have c1 : tl * (-ds) ≤ t * (-ds) := mul_le_mul_of_nonneg_right (by linarith [b1.1]) (by linarith)
          linarith
        · exact h3
      have h3 : (t1 + e) * (-ds) ≤ T * (-ds) := mul_le_mul_of_nonneg_right (by linarith) (by linarith)
      rw [ht] at h3
      linarith
    · linarith
  · have hab : |ds| = ds := abs_of_pos hpos
    rw [hab] at hst hds2
    have hTd : T * ds ≤ t * ds := mul_le_mul_of_nonneg_right hTt (by linarith)
    have hT0d : 0 ≤ T * ds := mul_nonneg hT0 (by linarith)
    refine ⟨?_, by linarith⟩
    rcases hst with hst | hst
    · have ht : t1 = tl := by
        rcases ht1 with ⟨h3, -⟩ | ⟨-, hle⟩
        · exact h3
        · exfalso
          have b1 := (htimes.2 hle)
          have c1 : th * ds ≤ t * ds := mul_le_mul_of_nonneg_right (by linarith [b1.1]) (by linarith)
          linarith
      have h3 : (t1 + e) * ds ≤ T * ds := mul_le_mul_of_nonneg_right (by linarith) (by linarith)
      rw [ht] at h3
      linarith
    · linarith

/-- One axis of the slab loop, for a ray that at time `t` is deep between the planes. -/
theorem slab_axis_near (h : EntryScale u η M s n N E) (hR : Rounds R u η M) (bits : ℕ) {x r D len z S t κ : ℚ} {st : Fl × Fl}
    (hlen : 1 / 10 ^ 10 ≤ len) (hr : |r - D| ≤ u * |D| + η) (hD : |D| ≤ 2 * len) (hx : 8 * |x| ≤ n * s) (hS0 : 0 ≤ S) (hS : 8 * S ≤ n * s)
    (hz : |z - S| ≤ u * n * s) (ht0 : 0 ≤ t) (htl : t ≤ len) (hκ : 6 * (u * n * s) + 5 / 10 ^ 10 * (1 + len) ≤ κ)
    (h1 : κ ≤ x + t * (D / len)) (h2 : x + t * (D / len) ≤ S - κ) (hst : SlabAround t ((κ - 4 * (u * n * s)) / 2) st) :
    ∃ st', flSlabAxis (ieee R bits) (.fin x) (Fl.divR R (.fin r) (.fin len)) (.fin z) st = some st' ∧
      SlabAround t ((κ - 4 * (u * n * s)) / 2) st' ∧ SlabGrows st st' ∧ SlabEnters (u * n * s) κ t x S (D / len) st' := by
  have hu := h.scale.u_pos; have hu1 := h.u_le; have hw := h.scale.w_pos; have hws := h.scale.w_le
  have hs := h.scale.s_pos
  have hlen0 : 0 < len := lt_of_lt_of_le (by norm_num) hlen
  obtain ⟨d, hd, hdd, hds2⟩ := dir_near h hR hlen hr hD
  obtain ⟨y, hy, hy1, hy2⟩ := tiny_near h hR
  generalize D / len = ds at *
  rw [hd]
  unfold flSlabAxis
  have htest : (ieee R bits).lt ((ieee R bits).abs (.fin d)) (ieee R bits).tiny = decide (|d| < y) := by
    show Fl.lt (.fin |d|) (R (1 / 10 ^ 10)) = _
    rw [hy]; rfl
  rw [htest]
  by_cases hflat : |d| < y
  · rw [if_pos (by simpa using hflat)]
    have a2 := abs_sub_abs_le_abs_sub ds d
    rw [abs_sub_comm] at a2
    have hP := abs_nonneg ds
    have h5 := mul_le_mul_of_nonneg_right hu1 hP
    have hsm : |ds| ≤ 12 / 10 ^ 11 := by linarith
    have htd : |t * ds| ≤ 12 / 10 ^ 11 * len := by
      rw [abs_mul, abs_of_nonneg ht0]
      have h6 := mul_le_mul_of_nonneg_left hsm ht0
      have h7 := mul_le_mul_of_nonneg_right htl (show (0 : ℚ) ≤ 12 / 10 ^ 11 by norm_num)
      linarith
    have htd' := abs_le.1 htd
    have hz' := abs_le.1 hz
    refine ⟨st, ?_, hst, fun m m' e1 e2 => by rw [e1] at e2; cases e2; exact le_rfl, fun m e T _ hκe _ _ hT0 hTt => ?_⟩
    · rw [if_pos]
      have c1 : 0 ≤ x := by linarith
      have c2 : x < z := by linarith
      show (Fl.le (.fin 0) (.fin x) && Fl.lt (.fin x) (.fin z)) = true
      rw [Bool.and_eq_true]
      exact ⟨decide_eq_true c1, decide_eq_true c2⟩
    · have hTd : |T * ds| ≤ 12 / 10 ^ 11 * len := by
        rw [abs_mul, abs_of_nonneg hT0]
        have h6 := mul_le_mul_of_nonneg_left hsm hT0
        have h7 := mul_le_mul_of_nonneg_right (hTt.trans htl) (show (0 : ℚ) ≤ 12 / 10 ^ 11 by norm_num)
        linarith
      have hTd' := abs_le.1 hTd
      constructor <;> linarith
  · rw [if_neg (by simpa using hflat)]
    obtain ⟨hds0, v, hv, hv1, hv2⟩ := recip_near h hR (by linarith [not_lt.1 hflat]) hdd hds2
    have hx' := abs_le.1 (show |x| ≤ n * s / 8 by linarith)
    have hz' := abs_le.1 hz
    obtain ⟨tl, etl, btl⟩ := plane_near h hR (z := 0 - x) (by rw [zero_sub, abs_neg]; linarith [abs_nonneg x]) hv1 hv2 hds2
    obtain ⟨th, eth, bth⟩ := plane_near h hR (z := z - x) (by
      have h3 : |z - x| ≤ (n * s + s) / 4 := by
        rw [abs_le]
        constructor <;> linarith
      linarith) hv1 hv2 hds2
    have btl' := btl.trans (show 3 * (u * n * s) ≤ 4 * (u * n * s) by linarith)
    have bth' : |th * ds - (S - x)| ≤ 4 * (u * n * s) := by
      have b := abs_le.1 bth
      rw [abs_le]
      constructor <;> linarith
    have hκ' : 6 * (u * n * s) + 4 / 10 ^ 10 ≤ κ := by linarith
    have htimes := axis_times hds0 hds2 btl' bth' (lt_of_lt_of_le (by linarith) hκ) h1 h2
    have elow : (ieee R bits).mul ((ieee R bits).sub (ieee R bits).zero (.fin x)) ((ieee R bits).div (ieee R bits).one (.fin d)) = .fin tl := by
      show Fl.mulR R (R (0 - x)) (Fl.divR R (.fin 1) (.fin d)) = _
      rw [hv]; exact etl
    have ehigh : (ieee R bits).mul ((ieee R bits).sub (.fin z) (.fin x)) ((ieee R bits).div (ieee R bits).one (.fin d)) = .fin th := by
      show Fl.mulR R (R (z - x)) (Fl.divR R (.fin 1) (.fin d)) = _
      rw [hv]; exact eth
    have hk : 0 ≤ (κ - 4 * (u * n * s)) / 2 := by linarith
    have hle : (ieee R bits).le (.fin tl) (.fin th) = decide (tl ≤ th) := rfl
    dsimp only
    rw [elow, ehigh, hle]
    by_cases hlh : tl ≤ th
    · simp only [hlh, decide_true, if_true]
      obtain ⟨b1, b2⟩ := htimes.1 hlh
      obtain ⟨g1, g2⟩ := slabAround_step hst hk ht0 b1 b2
      refine ⟨_, ?_, g1, slabGrows_step, slabEnters_step ⟨_, hst.1.choose_spec.1⟩ hds0 hds2 btl' bth' hκ' hw h1 h2 (.inl ⟨rfl, hlh⟩)⟩
      rw [if_neg]
      · rfl
      · intro hc
        exact Bool.false_ne_true (g2.symm.trans hc)
    · simp only [hlh, decide_false, if_false, Bool.false_eq_true]
      obtain ⟨b1, b2⟩ := htimes.2 hlh
      obtain ⟨g1, g2⟩ := slabAround_step hst hk ht0 b1 b2
      refine ⟨_, ?_, g1, slabGrows_step, slabEnters_step ⟨_, hst.1.choose_spec.1⟩ hds0 hds2 btl' bth' hκ' hw h1 h2 (.inr ⟨rfl, hlh⟩)⟩
      rw [if_neg]
      · rfl
      · intro hc
        exact Bool.false_ne_true (g2.symm.trans hc)

/-- The computed entry lies before every point of the ray deep in the grid. -/
theorem entry_before (h : EntryScale u η M s n N E) (hR : Rounds R u η M) (bits : ℕ) (hg : GridWith u s N g)
    (hdims : ∀ a, 8 * ((axisCells g.dims a : ℚ) + 2) ≤ n)
    (hsize : ∀ a, ∃ z, g.size a = .fin z ∧ |z - axisCells g.dims a * s| ≤ u * n * s) (ho : ∀ a, 8 * |o a| ≤ n * s)
    {r : Fin 3 → ℚ} (hr0 : ∀ a, Fl.subR R (.fin (p a)) (.fin (o a)) = .fin (r a))
    (hr1 : ∀ a, |r a - (p a - o a)| ≤ u * |p a - o a| + η) {len : ℚ} {range : Fl} (hD : ∀ a, |p a - o a| ≤ 2 * len) (hlen0 : 0 < len)
    (hlenM : 2 * len ≤ M) {i0 : IVec}
    (hi0 : flIndex (ieee R bits) g (fun a => .fin (o a)) = some i0) (hout : ¬ CellInGrid (axisCells g.dims) i0) {σ κ : ℚ}
    (hσ0 : 0 ≤ σ) (hσ1 : σ ≤ 1) (hκ : 6 * (u * n * s) + 5 / 10 ^ 10 * (1 + len) + 8 * (u * len) ≤ κ)
    (hdeep : ∀ a, κ ≤ onSeg o p σ a ∧ onSeg o p σ a ≤ axisCells g.dims a * s - κ) (hrange : FlBeyond (σ * len) range) :
    ∃ T, flEntry (ieee R bits) g (fun a => .fin (o a)) (fun a => .fin (p a)) (.fin len) range = some (.fin T) ∧ 0 ≤ T ∧
      T + 3 * (u * len) < σ * len ∧ (10 ^ 11 * (u * len) ≤ 4 → ∀ a,
        (7 * (u * n * s) * len ≤ 4 / 10 ^ 11 * |p a - o a| ∨ κ ≤ o a ∧ o a ≤ axisCells g.dims a * s - κ) →
        3 * (u * n * s) ≤ onSeg o p (T / len) a ∧ onSeg o p (T / len) a ≤ axisCells g.dims a * s - 3 * (u * n * s)) := by
  have hu := h.scale.u_pos; have hu1 := h.u_le; have hw := h.scale.w_pos; have hs := h.scale.s_pos
  have hη0 := h.scale.η_nonneg; have hη := h.η_le
  have hul := mul_pos hu hlen0
  have hσl : σ * len ≤ len := mul_le_of_le_one_left hlen0.le hσ1
  have hσl0 : 0 ≤ σ * len := mul_nonneg hσ0 hlen0.le
  -- the sensor is away from the point
  have hfar : κ - 5 * (u * n * s) ≤ 2 * (σ * len) ∧ 1 / 10 ^ 10 ≤ len := by
    obtain ⟨v, hv, hv'⟩ := hg.inv
    have : ∃ a, ¬ (0 ≤ i0 a ∧ i0 a < axisCells g.dims a) := by
      by_contra hc
      push Not at hc
      exact hout fun a => by
        have := hc a
        omega
    obtain ⟨a, ha⟩ := this
    have hi := flIndex_axis hi0 a
    rw [hv] at hi
    have hcells : (0 : ℚ) ≤ axisCells g.dims a := Nat.cast_nonneg _
    have hd := hdeep a
    unfold onSeg at hd
    have hσD : |σ * (p a - o a)| ≤ 2 * (σ * len) := by
      rw [abs_mul, abs_of_nonneg hσ0]
      have := mul_le_mul_of_nonneg_left (hD a) hσ0
      linarith
    have hσD' := abs_le.1 hσD
    have key : κ - 5 * (u * n * s) ≤ 2 * (σ * len) := by
      by_cases h0 : 0 ≤ i0 a
      · have h1 : (axisCells g.dims a : ℤ) ≤ i0 a := by
          by_contra hc
          exact ha ⟨h0, by omega⟩
        have := (index_final h.scale hR bits hv' hi (axisCells g.dims a : ℤ) (by omega) (by
          push_cast; linarith [hdims a])).1 h1
        push_cast at this
        linarith
      · have := (index_final h.scale hR bits hv' hi 0 le_rfl (by push_cast; linarith [h.n_ge])).2 (by omega)
        push_cast at this
        linarith
    exact ⟨key, by linarith⟩
  obtain ⟨hfar, hlen⟩ := hfar
  have haxis : ∀ (a : Fin 3) (st : Fl × Fl), SlabAround (σ * len) ((κ - 4 * (u * n * s)) / 2) st →
      ∃ st', flSlabAxis (ieee R bits) (.fin (o a)) ((ieee R bits).div ((ieee R bits).sub (.fin (p a)) (.fin (o a))) (.fin len)) (g.size a) st =
        some st' ∧ SlabAround (σ * len) ((κ - 4 * (u * n * s)) / 2) st' ∧ SlabGrows st st' ∧
        SlabEnters (u * n * s) κ (σ * len) (o a) (axisCells g.dims a * s) ((p a - o a) / len) st' := by
    intro a st hst
    obtain ⟨z, hz, hz'⟩ := hsize a
    have e0 : (ieee R bits).div ((ieee R bits).sub (.fin (p a)) (.fin (o a))) (.fin len) = Fl.divR R (.fin (r a)) (.fin len) := by
      show Fl.divR R (Fl.subR R (.fin (p a)) (.fin (o a))) (.fin len) = _
      rw [hr0 a]
    have hcells : (0 : ℚ) ≤ axisCells g.dims a := Nat.cast_nonneg _
    have e1 : onSeg o p σ a = o a + σ * len * ((p a - o a) / len) := by
      unfold onSeg
      field_simp
    have hd := hdeep a
    rw [e1] at hd
    rw [e0, hz]
    refine slab_axis_near h hR bits hlen (hr1 a) (hD a) (ho a) (mul_nonneg hcells hs.le) ?_ hz' hσl0 hσl (by linarith) hd.1 hd.2 hst
    have := mul_le_mul_of_nonneg_right (hdims a) hs.le
    linarith
  obtain ⟨st0, g0, b0, -, n0⟩ := haxis 0 ((ieee R bits).zero, range) ⟨⟨0, rfl, .inl rfl⟩, hrange⟩
  obtain ⟨st1, g1, b1, r1, n1⟩ := haxis 1 st0 b0
  obtain ⟨st2, g2, b2, r2, n2⟩ := haxis 2 st1 b1
  obtain ⟨m0, e0, -⟩ := b0.1
  obtain ⟨m1, e1, -⟩ := b1.1
  obtain ⟨m, hm, hmt⟩ := b2.1
  have m01 := r1 m0 m1 e0 e1
  have m12 := r2 m1 m e1 hm
  have hslabs : flSlabs (ieee R bits) g (fun a => .fin (o a))
      (fun a => (ieee R bits).div ((ieee R bits).sub (.fin (p a)) (.fin (o a))) (.fin len)) range = some (.fin m) := by
    unfold flSlabs
    rw [g0, Option.bind_some, g1, Option.bind_some, g2, Option.map_some, hm]
  have hm0 : 0 ≤ m := slabs_nonneg bits hslabs
  have hmt' : m + (κ - 5 * (u * n * s)) / 2 ≤ σ * len := by
    rcases hmt with rfl | hmt
    · linarith
    · linarith
  obtain ⟨y, hy, hy1, hy2⟩ := tiny_near h hR
  have hml : m ≤ len := by linarith
  have hM : 10 ^ 12 ≤ M := by
    have := h.M_ge
    have hns : 0 < n * s := mul_pos (by linarith [h.n_ge]) hs
    linarith
  have hum := mul_le_mul_of_nonneg_left hml hu.le
  rcases hR (m + y) with ⟨T, eT, e2⟩ | ⟨-, e⟩ | ⟨-, e⟩
  · rw [abs_of_nonneg (a := m + y) (by linarith)] at e2
    have e2' := abs_le.1 e2
    have huy := mul_le_mul_of_nonneg_left hy2 hu.le
    have hmu := mul_le_mul_of_nonneg_right hu1 hm0
    have hymu := mul_le_mul_of_nonneg_right hu1 (show 0 ≤ y by linarith)
    refine ⟨T, ?_, ?_, ?_, ?_⟩
    · unfold flEntry
      rw [hslabs, Option.map_some]
      have : (ieee R bits).add (.fin m) (ieee R bits).tiny = .fin T := by
        show Fl.addR R (.fin m) (R (1 / 10 ^ 10)) = _
        rw [hy]
        exact eT
      rw [this]
    · linarith
    · linarith
    · intro hul4 a hsteep
      have hmT : m + 4 / 10 ^ 11 ≤ T := by linarith
      have e4 : onSeg o p (T / len) a = o a + T * ((p a - o a) / len) := by
        unfold onSeg; ring
      have hsteep' : 7 * (u * n * s) ≤ 4 / 10 ^ 11 * |(p a - o a) / len| ∨ κ ≤ o a ∧ o a ≤ axisCells g.dims a * s - κ := by
        refine hsteep.imp_left fun h3 => ?_
        rw [abs_div, abs_of_pos hlen0, ← mul_div_assoc, le_div_iff₀ hlen0]
        exact h3
      have hT0 : 0 ≤ T := by linarith
      have hTt : T ≤ σ * len := by linarith
      rw [e4]
      fin_cases a
      · exact n0 m0 (4 / 10 ^ 11) T e0 (by norm_num) hsteep' (by linarith) hT0 hTt
      · exact n1 m1 (4 / 10 ^ 11) T e1 (by norm_num) hsteep' (by linarith) hT0 hTt
      · exact n2 m (4 / 10 ^ 11) T hm (by norm_num) hsteep' (by linarith) hT0 hTt
  · exfalso; linarith
  · exfalso; linarith

/-- The rest of a segment passes a cell as deeply as the segment does at a point of the rest. -/
theorem passesDeep_rest {tol θ q σ : ℚ} {c : IVec} (hθσ : θ ≤ σ) (hσq : σ ≤ q)
    (h : ∀ a, (c a : ℚ) * s + tol ≤ onSeg o p σ a ∧ onSeg o p σ a ≤ ((c a : ℚ) + 1) * s - tol) :
    PassesDeep tol s (onSeg o p θ) (onSeg o p q) c := by
  rcases hθσ.eq_or_lt with rfl | hlt
  · refine ⟨0, le_rfl, zero_le_one, fun a => ?_⟩
    have e : onSeg (onSeg o p θ) (onSeg o p q) 0 a = onSeg o p θ a := by unfold onSeg; ring
    rw [e]; exact h a
  · have hq : 0 < q - θ := by linarith
    refine ⟨(σ - θ) / (q - θ), div_nonneg (by linarith) hq.le, (div_le_one hq).2 (by linarith), fun a => ?_⟩
    have e : onSeg (onSeg o p θ) (onSeg o p q) ((σ - θ) / (q - θ)) a = onSeg o p σ a := by
      unfold onSeg
      field_simp
      ring
    rw [e]; exact h a

theorem passesWithin_rest {tol θ q : ℚ} {c : IVec} (h0 : 0 ≤ θ) (hθq : θ ≤ q) (hq : 0 < q)
    (h : PassesWithin tol s (onSeg o p θ) (onSeg o p q) c) : PassesWithin tol s o (onSeg o p q) c := by
  obtain ⟨τ, h1, h2, h3⟩ := h
  refine ⟨(θ + τ * (q - θ)) / q, div_nonneg (add_nonneg h0 (mul_nonneg h1 (by linarith))) hq.le, ?_, fun a => ?_⟩
  · rw [div_le_one hq]
    have := mul_le_mul_of_nonneg_right h2 (show 0 ≤ q - θ by linarith)
    linarith
  · have e : onSeg o (onSeg o p q) ((θ + τ * (q - θ)) / q) a = onSeg (onSeg o p θ) (onSeg o p q) τ a := by
      unfold onSeg
      field_simp
      ring
    rw [e]; exact h3 a

theorem onSeg_one : onSeg o p 1 = p := by funext a; unfold onSeg; ring

theorem beyond_of_unclipped (bits : ℕ) {t len : ℚ} {range : Fl} (ht : t ≤ len) (hclip : flClipped (ieee R bits) (.fin len) range = false) :
    FlBeyond t range := by
  have hclip' : Fl.lt range (.fin len) = false := hclip
  rcases range with _ | _ | q | _
  · trivial
  · cases hclip'
  · have : ¬ q < len := by simpa [Fl.lt] using hclip'
    exact ht.trans (not_lt.1 this)
  · trivial

/-- C73: the entry into the grid is never too late: whatever the rounding, if the start computed for a ray from a sensor
outside the grid has its cell in the grid, then every cell of the grid that the segment from the sensor to the point passes
deeper than the tolerance is marked.  The tolerance here has, besides `33 u n² s`, the share of the absolute constants `1e-10`
of the code (`nudge`, `flat_threshold`).
Missing for a full statement: rays whose computed start is not in the grid (`C73_grazing_ray_lost`). -/
theorem C73_deep_cells_partial (h : EntryScale u η M s n N E) (hR : Rounds R u η M) (bits : ℕ) (hg : GridWith u s N g)
    (hdims : ∀ a, 8 * ((axisCells g.dims a : ℚ) + 2) ≤ n)
    (hsize : ∀ a, ∃ z, g.size a = .fin z ∧ |z - axisCells g.dims a * s| ≤ u * n * s) (ho : ∀ a, 8 * |o a| ≤ n * s)
    (hpo : ∀ a, |p a - o a| ≤ L) (hLM : 8 * L ≤ M) (hL : 3 * (η * L) ≤ u * s) {len : ℚ} {range : Fl} (hlen : 0 < len)
    (hD : ∀ a, |p a - o a| ≤ 2 * len) (hlenM : 2 * len ≤ M)
    (hηlen : η * len ≤ u * s) (hclip : flClipped (ieee R bits) (.fin len) range = false) {i0 : IVec}
    (hi0 : flIndex (ieee R bits) g (fun a => .fin (o a)) = some i0) (hout : ¬ CellInGrid (axisCells g.dims) i0)
    (hentry : ∀ start i, flStart (ieee R bits) g (fun a => .fin (o a)) (fun a => (ieee R bits).sub (.fin (p a)) (.fin (o a))) (.fin len) range =
      some (some start) → flIndex (ieee R bits) g start = some i → CellInGrid (axisCells g.dims) i) {ms : List Mark}
    (hms : flRaycast (ieee R bits) g (fun a => .fin (o a)) (fun a => .fin (p a)) (.fin len) range = some ms) {c : IVec}
    (hc : CellInGrid (axisCells g.dims) c)
    (hd : PassesDeep (33 * E + 8 * (u * len) + 5 / 10 ^ 10 * (1 + len)) s o p c) :
    Mark.free c ∈ ms ∨ (Mark.filled c ∈ ms ∧ flIndex (ieee R bits) g (fun a => .fin (p a)) = some c) := by
  obtain ⟨σ, hσ0, hσ1, hσ⟩ := hd
  choose r hr0 hr1 hr2 hr3 using fun a => ray_near h.scale hR hLM hL (hpo a)
  have hw := h.scale.w_pos; have hs := h.scale.s_pos; have hul := mul_pos h.scale.u_pos hlen
  have hnw := h.scale.w_nw
  have hσl : σ * len ≤ len := mul_le_of_le_one_left hlen.le hσ1
  have hη11 : 10 ^ 11 * η ≤ 1 := by
    have := h.η_le; have := h.u_le; have := h.scale.η_nonneg
    linarith
  obtain ⟨T, hT, hT0, hTσ, -⟩ := entry_before h hR bits hg hdims hsize ho hr0 hr1 (κ := 6 * (u * n * s) + 5 / 10 ^ 10 * (1 + len) + 8 * (u * len))
    hD hlen hlenM hi0 hout hσ0 hσ1 le_rfl (by
      intro a
      obtain ⟨c0, c1⟩ := hc a
      have c0' : (0 : ℚ) ≤ c a := by exact_mod_cast c0
      have c1' : (c a : ℚ) + 1 ≤ axisCells g.dims a := by exact_mod_cast c1
      have := mul_nonneg c0' hs.le
      have := mul_le_mul_of_nonneg_right c1' hs.le
      have := hσ a
      constructor <;> linarith) (beyond_of_unclipped bits hσl hclip)
  have hTlen : T < len := by linarith
  have hstart := flStart_out (A := ieee R bits) hi0 hout hT
  have hms' := hms
  unfold flRaycast at hms'
  dsimp only at hms'
  rw [hstart] at hms'
  dsimp only at hms'
  obtain ⟨i, f, hi, hf, -⟩ := flCastFrom_some _ _ hms'
  have hin := hentry _ i hstart hi
  have hsound := C73_sensor_outside_partial h.scale h.n_ge hη11 hR bits hg hdims ho hpo hLM hL hlen hηlen hclip hi0 hout hT hTlen hstart hi hin hms
  refine hsound.2 c hc ?_
  have hrest := passesDeep_rest (s := s) (o := o) (p := p) (tol := 33 * E) (θ := T / len) (q := 1) (c := c)
    (by rw [div_le_iff₀ hlen]; linarith) hσ1 (by
      intro a
      have := hσ a
      constructor <;> linarith)
  rwa [onSeg_one] at hrest

/-- C73: the same for rays cut at the range. -/
theorem C73_deep_cells_clipped_partial (h : EntryScale u η M s n N E) (hR : Rounds R u η M) (h1 : KeepsOne R) (bits : ℕ) (hg : GridWith u s N g)
    (hdims : ∀ a, 8 * ((axisCells g.dims a : ℚ) + 2) ≤ n)
    (hsize : ∀ a, ∃ z, g.size a = .fin z ∧ |z - axisCells g.dims a * s| ≤ u * n * s) (ho : ∀ a, 8 * |o a| ≤ n * s)
    (hpo : ∀ a, |p a - o a| ≤ L) (hLM : 8 * L ≤ M) (hL : 3 * (η * L) ≤ u * s) {len range : ℚ} (hr : 0 < range) (hlt : range < len)
    (hη : 2 * (η * len) ≤ range) (hD : ∀ a, |p a - o a| ≤ 2 * len) (hlenM : 2 * len ≤ M) (hηlen : η * len ≤ u * s) {X : ℚ}
    (hX : ∀ a, |p a - o a| * (range / len) ≤ X) {i0 : IVec}
    (hi0 : flIndex (ieee R bits) g (fun a => .fin (o a)) = some i0) (hout : ¬ CellInGrid (axisCells g.dims) i0)
    (hentry : ∀ start i, flStart (ieee R bits) g (fun a => .fin (o a)) (fun a => (ieee R bits).sub (.fin (p a)) (.fin (o a))) (.fin len)
      (.fin range) = some (some start) → flIndex (ieee R bits) g start = some i → CellInGrid (axisCells g.dims) i) {ms : List Mark}
    (hms : flRaycast (ieee R bits) g (fun a => .fin (o a)) (fun a => .fin (p a)) (.fin len) (.fin range) = some ms) {c : IVec}
    (hc : CellInGrid (axisCells g.dims) c)
    (hd : PassesDeep (33 * E + 5 * (u * X) + 8 * (u * len) + 5 / 10 ^ 10 * (1 + len)) s o (onSeg o p (range / len)) c) :
    Mark.free c ∈ ms := by
  obtain ⟨τ, hτ0, hτ1, hτ⟩ := hd
  choose r hr0 hr1 hr2 hr3 using fun a => ray_near h.scale hR hLM hL (hpo a)
  have hlen := hr.trans hlt
  have hw := h.scale.w_pos; have hs := h.scale.s_pos; have hul := mul_pos h.scale.u_pos hlen
  have hnw := h.scale.w_nw
  have hq0 : 0 < range / len := div_pos hr hlen
  have hq1 : range / len ≤ 1 := (div_le_one hlen).2 hlt.le
  have hX0 : 0 ≤ u * X := mul_nonneg h.scale.u_pos.le ((mul_nonneg (abs_nonneg _) hq0.le).trans (hX 0))
  have hη11 : 10 ^ 11 * η ≤ 1 := by
    have := h.η_le; have := h.u_le; have := h.scale.η_nonneg
    linarith
  obtain ⟨σ, hσ⟩ : ∃ σ, σ = τ * (range / len) := ⟨_, rfl⟩
  have hσ0 : 0 ≤ σ := hσ ▸ mul_nonneg hτ0 hq0.le
  have hσq : σ ≤ range / len := hσ ▸ mul_le_of_le_one_left hq0.le hτ1
  have hσr : σ * len ≤ range := by rwa [le_div_iff₀ hlen] at hσq
  have hdeep : ∀ a, (c a : ℚ) * s + (33 * E + 5 * (u * X) + 8 * (u * len) + 5 / 10 ^ 10 * (1 + len)) ≤ onSeg o p σ a ∧
      onSeg o p σ a ≤ ((c a : ℚ) + 1) * s - (33 * E + 5 * (u * X) + 8 * (u * len) + 5 / 10 ^ 10 * (1 + len)) := by
    intro a
    have e : onSeg o (onSeg o p (range / len)) τ a = onSeg o p σ a := by
      rw [hσ]; unfold onSeg; ring
    have := hτ a
    rwa [e] at this
  obtain ⟨T, hT, hT0, hTσ, -⟩ := entry_before h hR bits hg hdims hsize ho hr0 hr1 (range := .fin range)
    (κ := 6 * (u * n * s) + 5 / 10 ^ 10 * (1 + len) + 8 * (u * len))
    hD hlen hlenM hi0 hout hσ0 (hσq.trans hq1) le_rfl (by
      intro a
      obtain ⟨c0, c1⟩ := hc a
      have c0' : (0 : ℚ) ≤ c a := by exact_mod_cast c0
      have c1' : (c a : ℚ) + 1 ≤ axisCells g.dims a := by exact_mod_cast c1
      have := mul_nonneg c0' hs.le
      have := mul_le_mul_of_nonneg_right c1' hs.le
      have := hdeep a
      constructor <;> linarith) hσr
  have hTr : T + u * range + η * len < range := by
    have h2 := mul_le_mul_of_nonneg_left hlt.le h.scale.u_pos.le
    have h3 := mul_le_mul_of_nonneg_right h.scale.η_le hlen.le
    linarith
  have hstart := flStart_out (A := ieee R bits) hi0 hout hT
  have hms' := hms
  unfold flRaycast at hms'
  dsimp only at hms'
  rw [hstart] at hms'
  dsimp only at hms'
  obtain ⟨i, f, hi, hf, -⟩ := flCastFrom_some _ _ hms'
  have hin := hentry _ i hstart hi
  have hsound := C73_clipped_partial h.scale h.n_ge hη11 hR h1 bits hg hdims ho hpo hLM hL hr hlt hη hηlen hX hi0 hout hT hTr hstart hi hin hms
  refine hsound.2.1 c hc (passesDeep_rest (by rw [div_le_iff₀ hlen]; linarith) hσq ?_)
  intro a
  have := hdeep a
  constructor <;> linarith

/-- Errors of the computed start. -/
theorem start_error {o x X q dT y u η ηT G w : ℚ} (hu : 0 < u) (hu1 : 72000 * u ≤ 1) (hη : 0 ≤ η) (hηw : 24 * η ≤ w) (hηT : 24 * ηT ≤ w)
    (hηT0 : 0 ≤ ηT) (hwG : w = u * G) (ho : 8 * |o| ≤ G) (hX : |X| ≤ G / 8) (hq : |q - (X - o)| ≤ u * |X - o| + η) (hd : |dT - q| ≤ u * |q| + ηT)
    (hy : |y - dT| ≤ u * |dT| + η) (hx : |x - (o + y)| ≤ u * |o + y| + η) : |x - X| ≤ 2 * w := by
  have hZ : |X - o| ≤ G / 4 := by
    have := abs_sub X o
    linarith
  have hG : 0 ≤ G := by linarith [abs_nonneg o]
  have hw0 : 0 ≤ w := hwG ▸ mul_nonneg hu.le hG
  have huw := mul_le_mul_of_nonneg_right hu1 hw0
  have k1 : |q - (X - o)| ≤ w / 4 + w / 24 := by
    have := mul_le_mul_of_nonneg_left hZ hu.le
    linarith
  have q1 : |q| ≤ G / 4 + w := by
    have := abs_sub_abs_le_abs_sub q (X - o)
    linarith
  have k2 : |dT - q| ≤ w / 4 + w / 20 := by
    have := mul_le_mul_of_nonneg_left q1 hu.le
    linarith
  have q2 : |dT| ≤ G / 4 + 2 * w := by
    have := abs_sub_abs_le_abs_sub dT q
    linarith
  have k3 : |y - dT| ≤ w / 4 + w / 20 := by
    have := mul_le_mul_of_nonneg_left q2 hu.le
    linarith
  have q3 : |o + y| ≤ G / 8 + 3 * w := by
    have e : o + y = X + ((q - (X - o)) + ((dT - q) + (y - dT))) := by ring
    rw [e]
    have a1 := abs_add_le X ((q - (X - o)) + ((dT - q) + (y - dT)))
    have a2 := abs_add_le (q - (X - o)) ((dT - q) + (y - dT))
    have a3 := abs_add_le (dT - q) (y - dT)
    linarith
  have k4 : |x - (o + y)| ≤ w / 4 + w / 20 := by
    have := mul_le_mul_of_nonneg_left q3 hu.le
    linarith
  have e : x - X = (x - (o + y)) + ((q - (X - o)) + ((dT - q) + (y - dT))) := by ring
  rw [e]
  have a1 := abs_add_le (x - (o + y)) ((q - (X - o)) + ((dT - q) + (y - dT)))
  have a2 := abs_add_le (q - (X - o)) ((dT - q) + (y - dT))
  have a3 := abs_add_le (dT - q) (y - dT)
  linarith

/-- If the ray is in the grid at the computed entry, so is the cell of the computed start. -/
theorem start_in_grid (h : EntryScale u η M s n N E) (hR : Rounds R u η M) (bits : ℕ) (hg : GridWith u s N g)
    (hdims : ∀ a, 8 * ((axisCells g.dims a : ℚ) + 2) ≤ n) (ho : ∀ a, 8 * |o a| ≤ n * s) {r : Fin 3 → ℚ}
    (hr1 : ∀ a, |r a - (p a - o a)| ≤ u * |p a - o a| + η) {len T : ℚ} (hlen : 0 < len) (hT0 : 0 ≤ T) (hTl : T ≤ len) (hηlen : η * len ≤ u * s)
    (hX : ∀ a, 3 * (u * n * s) ≤ onSeg o p (T / len) a ∧ onSeg o p (T / len) a ≤ axisCells g.dims a * s - 3 * (u * n * s)) {i : IVec}
    (hi : flIndex (ieee R bits) g (fun a => Fl.addR R (.fin (o a)) (Fl.mulR R (Fl.divR R (.fin (r a)) (.fin len)) (.fin T))) = some i) :
    CellInGrid (axisCells g.dims) i := by
  obtain ⟨v, hv, hv'⟩ := hg.inv
  have hu := h.scale.u_pos; have hη := h.scale.η_nonneg; have hs := h.scale.s_pos; have hw := h.scale.w_pos
  have hus := h.us_le
  have hθ0 : 0 ≤ T / len := div_nonneg hT0 hlen.le
  have hθ1 : T / len ≤ 1 := (div_le_one hlen).2 hTl
  intro a
  have hia := flIndex_axis hi a
  rw [hv] at hia
  obtain ⟨x, hx⟩ := finite_of_index bits hia
  rw [hx] at hia
  obtain ⟨T', d, y, hT', hd, hy, hxx⟩ := entry_point hR hlen hx
  cases hT'
  obtain ⟨X1, X2⟩ := hX a
  have hcells := mul_le_mul_of_nonneg_right (hdims a) hs.le
  have hXabs : |onSeg o p (T / len) a| ≤ n * s / 8 := by
    rw [abs_of_nonneg (by linarith)]
    linarith
  have hZ : onSeg o p (T / len) a - o a = T / len * (p a - o a) := by unfold onSeg; ring
  have hηT : 24 * (η * T) ≤ u * n * s := by
    have := mul_le_mul_of_nonneg_left hTl hη
    linarith
  have hnear : |x - onSeg o p (T / len) a| ≤ 2 * (u * n * s) := by
    refine start_error (G := n * s) (q := T / len * r a) (dT := d * T) (y := y) (ηT := η * T) (η := η) hu (by linarith [h.u_le]) hη
      (by linarith [h.scale.η_le_s]) hηT (mul_nonneg hη hT0) (by ring) (ho a) hXabs ?_ ?_ hy hxx
    · rw [hZ, ← mul_sub, abs_mul, abs_mul, abs_of_nonneg hθ0]
      have h1 := mul_le_mul_of_nonneg_left (hr1 a) hθ0
      have h2 := mul_le_mul_of_nonneg_right hθ1 hη
      linarith
    · rw [show d * T - T / len * r a = (d - r a / len) * T by ring, abs_mul, abs_of_nonneg hT0,
        show T / len * r a = (r a / len) * T by ring, abs_mul, abs_of_nonneg hT0]
      have := mul_le_mul_of_nonneg_right hd hT0
      linarith
  have hn' := abs_le.1 hnear
  obtain ⟨z, z1, z2, z3⟩ := index_near h.scale hR bits hv' hia
  have hxpos : 0 < x := by linarith
  rw [abs_of_pos hxpos] at z3
  have z3' := abs_le.1 z3
  have hux : 4 * (u * x) ≤ 3 / 4 * (u * n * s) := by
    have h1 : x ≤ n * s / 8 := by linarith
    have h2 := mul_le_mul_of_nonneg_left h1 hu.le
    linarith
  have hz0 : 0 < z * s := by linarith
  have hz1 : z * s < axisCells g.dims a * s := by linarith
  have hz0' : 0 < z := by
    by_contra hc
    have := mul_nonpos_of_nonpos_of_nonneg (not_lt.1 hc) hs.le
    linarith
  have hz1' : z < axisCells g.dims a := lt_of_mul_lt_mul_right hz1 hs.le
  constructor
  · have : ((-1 : ℤ) : ℚ) < i a := by push_cast; linarith
    have := Int.cast_lt.1 this
    omega
  · have : (i a : ℚ) < ((axisCells g.dims a : ℤ) : ℚ) := by push_cast; linarith
    exact Int.cast_lt.1 this

/-- The computed start of a ray that passes the grid deeply and is not almost parallel to a face it comes through is in the grid. -/
theorem steep_start (h : EntryScale u η M s n N E) (hR : Rounds R u η M) (bits : ℕ) (hg : GridWith u s N g)
    (hdims : ∀ a, 8 * ((axisCells g.dims a : ℚ) + 2) ≤ n)
    (hsize : ∀ a, ∃ z, g.size a = .fin z ∧ |z - axisCells g.dims a * s| ≤ u * n * s) (ho : ∀ a, 8 * |o a| ≤ n * s)
    (hpo : ∀ a, |p a - o a| ≤ L) (hLM : 8 * L ≤ M) (hL : 3 * (η * L) ≤ u * s) {len : ℚ} {range : Fl} (hlen : 0 < len)
    (hD : ∀ a, |p a - o a| ≤ 2 * len) (hlenM : 2 * len ≤ M) (hlen4 : 10 ^ 11 * (u * len) ≤ 4)
    (hηlen : η * len ≤ u * s) {i0 : IVec}
    (hi0 : flIndex (ieee R bits) g (fun a => .fin (o a)) = some i0) (hout : ¬ CellInGrid (axisCells g.dims) i0)
    (hsteep : ∀ a, 2 * 10 ^ 11 * (u * n * s) * len ≤ |p a - o a| ∨
      (6 * (u * n * s) + 8 * (u * len) + 5 / 10 ^ 10 * (1 + len) ≤ o a ∧
        o a ≤ axisCells g.dims a * s - (6 * (u * n * s) + 8 * (u * len) + 5 / 10 ^ 10 * (1 + len)))) {c : IVec}
    (hc : CellInGrid (axisCells g.dims) c) {σ : ℚ} (hσ0 : 0 ≤ σ) (hσ1 : σ ≤ 1)
    (hσ : ∀ a, (c a : ℚ) * s + (33 * E + 8 * (u * len) + 5 / 10 ^ 10 * (1 + len)) ≤ onSeg o p σ a ∧
      onSeg o p σ a ≤ ((c a : ℚ) + 1) * s - (33 * E + 8 * (u * len) + 5 / 10 ^ 10 * (1 + len)))
    (hrange : FlBeyond (σ * len) range) {start : Fin 3 → Fl} {i : IVec}
    (hstart : flStart (ieee R bits) g (fun a => .fin (o a)) (fun a => (ieee R bits).sub (.fin (p a)) (.fin (o a))) (.fin len) range =
      some (some start)) (hi : flIndex (ieee R bits) g start = some i) : CellInGrid (axisCells g.dims) i := by
  choose r hr0 hr1 hr2 hr3 using fun a => ray_near h.scale hR hLM hL (hpo a)
  have hw := h.scale.w_pos; have hs := h.scale.s_pos; have hul := mul_pos h.scale.u_pos hlen
  have hnw := h.scale.w_nw
  have hσl : σ * len ≤ len := mul_le_of_le_one_left hlen.le hσ1
  obtain ⟨T, hT, hT0, hTσ, hTin⟩ := entry_before h hR bits hg hdims hsize ho hr0 hr1
    (κ := 6 * (u * n * s) + 8 * (u * len) + 5 / 10 ^ 10 * (1 + len))
    hD hlen hlenM hi0 hout hσ0 hσ1 (by linarith) (by
      intro a
      obtain ⟨c0, c1⟩ := hc a
      have c0' : (0 : ℚ) ≤ c a := by exact_mod_cast c0
      have c1' : (c a : ℚ) + 1 ≤ axisCells g.dims a := by exact_mod_cast c1
      have := mul_nonneg c0' hs.le
      have := mul_le_mul_of_nonneg_right c1' hs.le
      have := hσ a
      constructor <;> linarith) hrange
  have hstart' := flStart_out (A := ieee R bits) hi0 hout hT
  rw [hstart] at hstart'
  cases hstart'
  have hst : (fun a => (ieee R bits).add (.fin (o a)) ((ieee R bits).mul ((ieee R bits).div ((ieee R bits).sub (.fin (p a)) (.fin (o a)))
      (.fin len)) (.fin T))) = fun a => Fl.addR R (.fin (o a)) (Fl.mulR R (Fl.divR R (.fin (r a)) (.fin len)) (.fin T)) := by
    funext a
    show Fl.addR R (.fin (o a)) (Fl.mulR R (Fl.divR R (Fl.subR R (.fin (p a)) (.fin (o a))) (.fin len)) (.fin T)) = _
    rw [hr0 a]
  rw [hst] at hi
  refine start_in_grid h hR bits hg hdims ho hr1 hlen hT0 (by linarith) hηlen (fun a => hTin hlen4 a ?_) hi
  refine (hsteep a).imp_left fun h3 => ?_
  have := mul_pos hw hlen
  linarith

/-- C73: no ray is lost that is not almost parallel to a face it comes through: whatever the rounding, if along every axis the
sensor lies between the faces of the grid or the ray rises by more than `2e11 u n s` per length, then every cell of the grid that
the segment from the sensor, outside the grid, to the point passes deeper than the tolerance is marked.
Missing for a full statement: flatter rays, for which it does not hold (`C73_grazing_ray_lost`). -/
theorem C73_steep_partial (h : EntryScale u η M s n N E) (hR : Rounds R u η M) (bits : ℕ) (hg : GridWith u s N g)
    (hdims : ∀ a, 8 * ((axisCells g.dims a : ℚ) + 2) ≤ n)
    (hsize : ∀ a, ∃ z, g.size a = .fin z ∧ |z - axisCells g.dims a * s| ≤ u * n * s) (ho : ∀ a, 8 * |o a| ≤ n * s)
    (hpo : ∀ a, |p a - o a| ≤ L) (hLM : 8 * L ≤ M) (hL : 3 * (η * L) ≤ u * s) {len : ℚ} {range : Fl} (hlen : 0 < len)
    (hD : ∀ a, |p a - o a| ≤ 2 * len) (hlenM : 2 * len ≤ M) (hlen4 : 10 ^ 11 * (u * len) ≤ 4)
    (hηlen : η * len ≤ u * s) (hclip : flClipped (ieee R bits) (.fin len) range = false) {i0 : IVec}
    (hi0 : flIndex (ieee R bits) g (fun a => .fin (o a)) = some i0) (hout : ¬ CellInGrid (axisCells g.dims) i0)
    (hsteep : ∀ a, 2 * 10 ^ 11 * (u * n * s) * len ≤ |p a - o a| ∨
      (6 * (u * n * s) + 8 * (u * len) + 5 / 10 ^ 10 * (1 + len) ≤ o a ∧
        o a ≤ axisCells g.dims a * s - (6 * (u * n * s) + 8 * (u * len) + 5 / 10 ^ 10 * (1 + len)))) {ms : List Mark}
    (hms : flRaycast (ieee R bits) g (fun a => .fin (o a)) (fun a => .fin (p a)) (.fin len) range = some ms) {c : IVec}
    (hc : CellInGrid (axisCells g.dims) c)
    (hd : PassesDeep (33 * E + 8 * (u * len) + 5 / 10 ^ 10 * (1 + len)) s o p c) :
    Mark.free c ∈ ms ∨ (Mark.filled c ∈ ms ∧ flIndex (ieee R bits) g (fun a => .fin (p a)) = some c) := by
  refine C73_deep_cells_partial h hR bits hg hdims hsize ho hpo hLM hL hlen hD hlenM hηlen hclip hi0 hout ?_ hms hc hd
  intro start i hstart hi
  obtain ⟨σ, hσ0, hσ1, hσ⟩ := hd
  exact steep_start h hR bits hg hdims hsize ho hpo hLM hL hlen hD hlenM hlen4 hηlen hi0 hout hsteep hc hσ0 hσ1 hσ
    (beyond_of_unclipped bits (mul_le_of_le_one_left hlen.le hσ1) hclip) hstart hi

/-- C73: the same for rays cut at the range. -/
theorem C73_steep_clipped_partial (h : EntryScale u η M s n N E) (hR : Rounds R u η M) (h1 : KeepsOne R) (bits : ℕ) (hg : GridWith u s N g)
    (hdims : ∀ a, 8 * ((axisCells g.dims a : ℚ) + 2) ≤ n)
    (hsize : ∀ a, ∃ z, g.size a = .fin z ∧ |z - axisCells g.dims a * s| ≤ u * n * s) (ho : ∀ a, 8 * |o a| ≤ n * s)
    (hpo : ∀ a, |p a - o a| ≤ L) (hLM : 8 * L ≤ M) (hL : 3 * (η * L) ≤ u * s) {len range : ℚ} (hr : 0 < range) (hlt : range < len)
    (hη : 2 * (η * len) ≤ range) (hD : ∀ a, |p a - o a| ≤ 2 * len) (hlenM : 2 * len ≤ M) (hlen4 : 10 ^ 11 * (u * len) ≤ 4)
    (hηlen : η * len ≤ u * s) {X : ℚ} (hX : ∀ a, |p a - o a| * (range / len) ≤ X) {i0 : IVec}
    (hi0 : flIndex (ieee R bits) g (fun a => .fin (o a)) = some i0) (hout : ¬ CellInGrid (axisCells g.dims) i0)
    (hsteep : ∀ a, 2 * 10 ^ 11 * (u * n * s) * len ≤ |p a - o a| ∨
      (6 * (u * n * s) + 8 * (u * len) + 5 / 10 ^ 10 * (1 + len) ≤ o a ∧
        o a ≤ axisCells g.dims a * s - (6 * (u * n * s) + 8 * (u * len) + 5 / 10 ^ 10 * (1 + len)))) {ms : List Mark}
    (hms : flRaycast (ieee R bits) g (fun a => .fin (o a)) (fun a => .fin (p a)) (.fin len) (.fin range) = some ms) {c : IVec}
    (hc : CellInGrid (axisCells g.dims) c)
    (hd : PassesDeep (33 * E + 5 * (u * X) + 8 * (u * len) + 5 / 10 ^ 10 * (1 + len)) s o (onSeg o p (range / len)) c) :
    Mark.free c ∈ ms := by
  refine C73_deep_cells_clipped_partial h hR h1 bits hg hdims hsize ho hpo hLM hL hr hlt hη hD hlenM hηlen hX hi0 hout ?_ hms hc hd
  intro start i hstart hi
  obtain ⟨τ, hτ0, hτ1, hτ⟩ := hd
  have hlen := hr.trans hlt
  have hq0 : 0 < range / len := div_pos hr hlen
  have hq1 : range / len ≤ 1 := (div_le_one hlen).2 hlt.le
  have hX0 : 0 ≤ u * X := mul_nonneg h.scale.u_pos.le ((mul_nonneg (abs_nonneg _) hq0.le).trans (hX 0))
  have hσq : τ * (range / len) ≤ range / len := mul_le_of_le_one_left hq0.le hτ1
  refine steep_start (σ := τ * (range / len)) h hR bits hg hdims hsize ho hpo hLM hL hlen hD hlenM hlen4 hηlen hi0 hout hsteep hc
    (mul_nonneg hτ0 hq0.le) (hσq.trans hq1) (fun a => ?_) ?_ hstart hi
  · have e : onSeg o (onSeg o p (range / len)) τ a = onSeg o p (τ * (range / len)) a := by unfold onSeg; ring
    have := hτ a
    rw [e] at this
    constructor <;> linarith
  · show τ * (range / len) * len ≤ range
    rwa [le_div_iff₀ hlen] at hσq

end

/-! ### The CPU -/

/-- Grids of up to two million cells along an axis are small enough for `double`. -/
theorem entryScale_double {s n N : ℚ} (hs : 1 / 2 ^ 60 ≤ s) (hs' : s ≤ 2 ^ 60) (hN : 3 ≤ N) (hN' : N ≤ 2 ^ 21) (hn : 8 * N ≤ n)
    (hn' : n ≤ 2 ^ 40) :
    EntryScale (1 / 2 ^ 53) (1 / 2 ^ 1075) ((2 - 1 / 2 ^ 52) * 2 ^ 1023) s n N
      (1 / 2 ^ 53 * N ^ 2 * s / 2 + 3 * (1 / 2 ^ 53 * n * s)) := by
  refine ⟨rayScale_double_wide hs hs' hN hN' (by linarith) hn', by linarith, ?_, ?_⟩
  · have hη := one_div_pow_le (m := 200) (k := 1075) (by norm_num)
    generalize (1 : ℚ) / 2 ^ 1075 = η at *
    calc 10 ^ 24 * η ≤ 10 ^ 24 * (1 / 2 ^ 200) := by gcongr
      _ ≤ 1 / 2 ^ 53 := by norm_num
  · refine le_trans ?_ double_max_ge
    have hs0 : 0 < s := lt_of_lt_of_le (by norm_num) hs
    have hns : n * s ≤ 2 ^ 40 * 2 ^ 60 := mul_le_mul hn' hs' hs0.le (by norm_num)
    calc (10 : ℚ) ^ 12 * (1 + n * s) ≤ 10 ^ 12 * (1 + 2 ^ 40 * 2 ^ 60) := by gcongr
      _ ≤ 2 ^ 200 := by norm_num

/-- C73: on the CPU, every cell that the segment from the sensor to the point passes deeper than
`33 (N² / 2 + 3 n) s / 2^53 + (1 + len) 6e-10` is marked (`N` at least the number of cells along an axis plus two, `n` eight times
that, and the sensor within `n / 8` cells of the origin of the grid; one part in 10^8 of the edge for grids of a hundred cells of
10 cm). -/
theorem C73_double_deep_cells_partial {g : RayGrid Fl} {s n N : ℚ} (hs : 1 / 2 ^ 60 ≤ s) (hs' : s ≤ 2 ^ 60) (hcell : g.cell = .fin s)
    (hinv : g.inv = double64.div double64.one g.cell)
    (hsize : ∀ a, ∃ z, g.size a = .fin z ∧ |z - axisCells g.dims a * s| ≤ n * s / 2 ^ 53)
    (hd : ∀ a, (axisCells g.dims a : ℚ) + 2 ≤ N) (hN : 3 ≤ N) (hN' : N ≤ 2 ^ 21) (hn : 8 * N ≤ n) (hn' : n ≤ 2 ^ 40)
    {o p : Fin 3 → ℚ} (ho : ∀ a, 8 * |o a| ≤ n * s) (hpo : ∀ a, |p a - o a| ≤ 2 ^ 60) {i0 : IVec}
    (hi0 : flIndex double64 g (fun a => .fin (o a)) = some i0) (hout : ¬ CellInGrid (axisCells g.dims) i0) {len : ℚ} {range : Fl}
    (hlen0 : 0 < len) (hlen : len ≤ 2 ^ 60) (hD : ∀ a, |p a - o a| ≤ 2 * len) (hclip : double64.lt range (.fin len) = false)
    (hentry : ∀ start i, flStart double64 g (fun a => .fin (o a)) (fun a => double64.sub (.fin (p a)) (.fin (o a))) (.fin len) range =
      some (some start) → flIndex double64 g start = some i → CellInGrid (axisCells g.dims) i) {ms : List Mark}
    (hms : flRaycast double64 g (fun a => .fin (o a)) (fun a => .fin (p a)) (.fin len) range = some ms) {c : IVec}
    (hc : CellInGrid (axisCells g.dims) c)
    (hdeep : PassesDeep (33 * ((N ^ 2 / 2 + 3 * n) * s / 2 ^ 53) + 6 / 10 ^ 10 * (1 + len)) s o p c) :
    Mark.free c ∈ ms ∨ (Mark.filled c ∈ ms ∧ flIndex double64 g (fun a => .fin (p a)) = some c) := by
  refine C73_deep_cells_partial (L := 2 ^ 60) (entryScale_double hs hs' hN hN' hn hn') rounds_double 64
    (gridWith_double hs hs' hcell hinv hd) (fun a => by linarith [hd a])
    (fun a => by
      obtain ⟨z, h1, h2⟩ := hsize a
      exact ⟨z, h1, h2.trans (le_of_eq (by ring))⟩) ho hpo
    (le_trans (by norm_num) double_max_ge) (double_reach hs le_rfl) hlen0 hD ?_ ?_ hclip hi0 hout hentry hms hc ?_
  · refine le_trans ?_ double_max_ge
    calc 2 * len ≤ 2 * 2 ^ 60 := by gcongr
      _ ≤ 2 ^ 200 := by norm_num
  · have := double_reach hs hlen
    have h0 : (0 : ℚ) ≤ 1 / 2 ^ 1075 * len := mul_nonneg (by positivity) hlen0.le
    linarith
  · obtain ⟨τ, h1, h2, h3⟩ := hdeep
    refine ⟨τ, h1, h2, fun a => ?_⟩
    have := h3 a
    have e : (N ^ 2 / 2 + 3 * n) * s / 2 ^ 53 = 1 / 2 ^ 53 * N ^ 2 * s / 2 + 3 * (1 / 2 ^ 53 * n * s) := by ring
    rw [e] at this
    have h4 : 8 * (1 / 2 ^ 53 * len) + 5 / 10 ^ 10 * (1 + len) ≤ 6 / 10 ^ 10 * (1 + len) := by linarith
    constructor <;> linarith

/-- A ray from outside that passes the cells `(0, 0, 0)`, `(0, 1, 0)` and `(1, 1, 0)` before its end meets the hypotheses. -/
example (ms : List Mark) (h : flRaycast double64 grid4 (fun a => .fin ((![-1, 1 / 2, 1 / 2] : Fin 3 → ℚ) a))
    (fun a => .fin ((![5 / 2, 3 / 2, 1 / 2] : Fin 3 → ℚ) a)) (.fin 4) .pinf = some ms) :
    Mark.free ![0, 1, 0] ∈ ms ∨ (Mark.filled ![0, 1, 0] ∈ ms ∧
      flIndex double64 grid4 (fun a => .fin ((![5 / 2, 3 / 2, 1 / 2] : Fin 3 → ℚ) a)) = some ![0, 1, 0]) :=
  C73_double_deep_cells_partial (i0 := ![-1, 0, 0]) (N := 6) (n := 48) (by norm_num) (by norm_num) rfl (by decide +kernel)
    (by intro a; refine ⟨4, rfl, ?_⟩; fin_cases a <;> norm_num [grid4, axisCells])
    (by intro a; fin_cases a <;> norm_num [grid4, axisCells]) (by norm_num) (by norm_num) (by norm_num) (by norm_num)
    (by intro a; fin_cases a <;> norm_num [abs_of_pos]) (by intro a; fin_cases a <;> norm_num [abs_le]) (by decide +kernel)
    (fun hc => absurd (hc 0).1 (by decide)) (by norm_num) (by norm_num) (by intro a; fin_cases a <;> norm_num [abs_le]) (by decide +kernel)
    (by
      intro start i h1 h2
      have h3 : flStart double64 grid4 (fun a => .fin ((![-1, 1 / 2, 1 / 2] : Fin 3 → ℚ) a))
        (fun a => double64.sub (.fin ((![5 / 2, 3 / 2, 1 / 2] : Fin 3 → ℚ) a)) (.fin ((![-1, 1 / 2, 1 / 2] : Fin 3 → ℚ) a))) (.fin 4) .pinf =
        some (some ![.fin (394065 / 4503599627370496), .fin (7077085128950245 / 9007199254740992), .fin (1 / 2)]) := by decide +kernel
      have h4 : flIndex double64 grid4 ![.fin (394065 / 4503599627370496), .fin (7077085128950245 / 9007199254740992), .fin (1 / 2)] =
        some ![0, 0, 0] := by decide +kernel
      have h1' := h3.symm.trans h1
      cases h1'
      rw [h4] at h2
      cases h2
      intro a; fin_cases a <;> simp [grid4, axisCells]) h
    (by intro a; fin_cases a <;> simp [grid4, axisCells])
    ⟨15 / 28, by norm_num, by norm_num, by intro a; fin_cases a <;> norm_num [onSeg]⟩

/-- C73: on the CPU, for rays of up to 300 km (in units of the grid): every ray that rises by more than `2e11 n s / 2^53` per length
along the axes on which the sensor lies beyond the grid. -/
theorem C73_double_steep_partial {g : RayGrid Fl} {s n N : ℚ} (hs : 1 / 2 ^ 60 ≤ s) (hs' : s ≤ 2 ^ 60) (hcell : g.cell = .fin s)
    (hinv : g.inv = double64.div double64.one g.cell)
    (hsize : ∀ a, ∃ z, g.size a = .fin z ∧ |z - axisCells g.dims a * s| ≤ n * s / 2 ^ 53)
    (hd : ∀ a, (axisCells g.dims a : ℚ) + 2 ≤ N) (hN : 3 ≤ N) (hN' : N ≤ 2 ^ 21) (hn : 8 * N ≤ n) (hn' : n ≤ 2 ^ 40)
    {o p : Fin 3 → ℚ} (ho : ∀ a, 8 * |o a| ≤ n * s) (hpo : ∀ a, |p a - o a| ≤ 2 ^ 60) {i0 : IVec}
    (hi0 : flIndex double64 g (fun a => .fin (o a)) = some i0) (hout : ¬ CellInGrid (axisCells g.dims) i0) {len : ℚ} {range : Fl}
    (hlen0 : 0 < len) (hlen : len ≤ 300000) (hD : ∀ a, |p a - o a| ≤ 2 * len) (hclip : double64.lt range (.fin len) = false)
    (hsteep : ∀ a, 2 * 10 ^ 11 * (n * s / 2 ^ 53) * len ≤ |p a - o a| ∨
      (6 * (n * s / 2 ^ 53) + 6 / 10 ^ 10 * (1 + len) ≤ o a ∧ o a ≤ axisCells g.dims a * s - (6 * (n * s / 2 ^ 53) + 6 / 10 ^ 10 * (1 + len))))
    {ms : List Mark} (hms : flRaycast double64 g (fun a => .fin (o a)) (fun a => .fin (p a)) (.fin len) range = some ms) {c : IVec}
    (hc : CellInGrid (axisCells g.dims) c)
    (hdeep : PassesDeep (33 * ((N ^ 2 / 2 + 3 * n) * s / 2 ^ 53) + 6 / 10 ^ 10 * (1 + len)) s o p c) :
    Mark.free c ∈ ms ∨ (Mark.filled c ∈ ms ∧ flIndex double64 g (fun a => .fin (p a)) = some c) := by
  have hlen60 : len ≤ 2 ^ 60 := hlen.trans (by norm_num)
  have h4 : 8 * (1 / 2 ^ 53 * len) + 5 / 10 ^ 10 * (1 + len) ≤ 6 / 10 ^ 10 * (1 + len) := by linarith
  refine C73_steep_partial (L := 2 ^ 60) (entryScale_double hs hs' hN hN' hn hn') rounds_double 64
    (gridWith_double hs hs' hcell hinv hd) (fun a => by linarith [hd a])
    (fun a => by
      obtain ⟨z, h1, h2⟩ := hsize a
      exact ⟨z, h1, h2.trans (le_of_eq (by ring))⟩) ho hpo
    (le_trans (by norm_num) double_max_ge) (double_reach hs le_rfl) hlen0 hD ?_ ?_ ?_ hclip hi0 hout ?_ hms hc ?_
  · refine le_trans ?_ double_max_ge
    calc 2 * len ≤ 2 * 2 ^ 60 := by gcongr
      _ ≤ 2 ^ 200 := by norm_num
  · linarith
  · have := double_reach hs hlen60
    have h0 : (0 : ℚ) ≤ 1 / 2 ^ 1075 * len := mul_nonneg (by positivity) hlen0.le
    linarith
  · intro a
    have e : n * s / 2 ^ 53 = 1 / 2 ^ 53 * n * s := by ring
    have := hsteep a
    rw [e] at this
    refine this.imp id fun h5 => ⟨by linarith [h5.1], by linarith [h5.2]⟩
  · obtain ⟨τ, h1, h2, h3⟩ := hdeep
    refine ⟨τ, h1, h2, fun a => ?_⟩
    have := h3 a
    have e : (N ^ 2 / 2 + 3 * n) * s / 2 ^ 53 = 1 / 2 ^ 53 * N ^ 2 * s / 2 + 3 * (1 / 2 ^ 53 * n * s) := by ring
    rw [e] at this
    constructor <;> linarith

/-- The same ray meets the hypotheses, without any knowledge of the computed entry. -/
example (ms : List Mark) (h : flRaycast double64 grid4 (fun a => .fin ((![-1, 1 / 2, 1 / 2] : Fin 3 → ℚ) a))
    (fun a => .fin ((![5 / 2, 3 / 2, 1 / 2] : Fin 3 → ℚ) a)) (.fin 4) .pinf = some ms) :
    Mark.free ![0, 1, 0] ∈ ms ∨ (Mark.filled ![0, 1, 0] ∈ ms ∧
      flIndex double64 grid4 (fun a => .fin ((![5 / 2, 3 / 2, 1 / 2] : Fin 3 → ℚ) a)) = some ![0, 1, 0]) :=
  C73_double_steep_partial (i0 := ![-1, 0, 0]) (N := 6) (n := 48) (by norm_num) (by norm_num) rfl (by decide +kernel)
    (by intro a; refine ⟨4, rfl, ?_⟩; fin_cases a <;> norm_num [grid4, axisCells])
    (by intro a; fin_cases a <;> norm_num [grid4, axisCells]) (by norm_num) (by norm_num) (by norm_num) (by norm_num)
    (by intro a; fin_cases a <;> norm_num [abs_of_pos]) (by intro a; fin_cases a <;> norm_num [abs_le]) (by decide +kernel)
    (fun hc => absurd (hc 0).1 (by decide)) (by norm_num) (by norm_num) (by intro a; fin_cases a <;> norm_num [abs_le]) (by decide +kernel)
    (by
      intro a
      fin_cases a
      · left; norm_num [abs_of_pos]
      · right; norm_num [grid4, axisCells]
      · right; norm_num [grid4, axisCells]) h
    (by intro a; fin_cases a <;> simp [grid4, axisCells])
    ⟨15 / 28, by norm_num, by norm_num, by intro a; fin_cases a <;> norm_num [onSeg]⟩

end VGT
