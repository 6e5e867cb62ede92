import Verif.Lemmas.SDFGen

set_option autoImplicit false

namespace VGT.EDT
open VGT VGT.Par VGT.Spec

theorem Fits.of_enlarge {d : Dims} (h : Fits (enlarge d)) : Fits d where
  x := le_trans (Nat.le_add_right _ _) h.x
  y := le_trans (Nat.le_add_right _ _) h.y
  z := le_trans (Nat.le_add_right _ _) h.z
  sum := by
    refine le_trans ?_ h.sum
    have := Nat.pow_le_pow_left (Nat.le_add_right d.nx (sizeOffset d.nx)) 2
    have := Nat.pow_le_pow_left (Nat.le_add_right d.ny (sizeOffset d.ny)) 2
    have := Nat.pow_le_pow_left (Nat.le_add_right d.nz (sizeOffset d.nz)) 2
    simp only [enlarge]
    omega

/-- Cells of kind `v`, and everything outside if there is a virtual border. -/
def targets (d : Dims) (border : Bool) (b : Idx → Bool) (v : Bool) : Set ZIdx :=
  {z | ∃ p, d.In p ∧ b p = v ∧ z = toZ p} ∪ {z | border = true ∧ z ∈ Outside d.nx d.ny d.nz}

theorem sq3_toZ (i p : Idx) : sq3 i p = sqz (toZ i) (toZ p) := by
  have : ((sq3 i p : ℕ) : ℤ) = ((sqz (toZ i) (toZ p) : ℕ) : ℤ) := by
    rw [sq3_cast]
    unfold sqz
    rw [natAbs_sq_sum]
    simp only [toZ]
  exact_mod_cast this

theorem sqDist_toZ (P : Idx → Prop) (i : Idx) :
    sqDist {p | P p} i = sqDistZ {z | ∃ p, P p ∧ z = toZ p} (toZ i) := by
  apply le_antisymm
  · refine le_iInf₂ ?_
    rintro z ⟨p, hp, rfl⟩
    rw [← sq3_toZ]
    exact iInf₂_le p hp
  · refine le_iInf₂ ?_
    intro p hp
    rw [sq3_toZ]
    exact iInf₂_le (toZ p) ⟨p, hp, rfl⟩

theorem targets_false (d : Dims) (b : Idx → Bool) (v : Bool) (i : Idx) :
    sqDistZ (targets d false b v) (toZ i) = sqDist {p | d.In p ∧ b p = v} i := by
  rw [sqDist_toZ]
  congr 1
  ext z
  simp [targets, and_assoc]

theorem not_mem_targets {d : Dims} {border : Bool} {b : Idx → Bool} {v : Bool} {i : Idx} (hi : d.In i)
    (hb : b i ≠ v) : toZ i ∉ targets d border b v := by
  rintro (⟨p, _, hp, he⟩ | ⟨_, _, _, _, hout⟩)
  · rw [toZ_inj he] at hb
    exact hb hp
  · apply hout
    obtain ⟨h1, h2, h3⟩ := hi
    simp only [toZ]
    omega

variable {ro : Rounding} {g : GridInfo} {isFilled : ZIdx → Option Bool} {b : Idx → Bool}

/-- Generation with or without virtual border, for every schedule. -/
theorem gridRuns_eq (hok : GenOK ro g) (hb : ∀ i, g.dims.In i → isFilled (toZ i) = some (b i)) {border : Bool}
    {oob : Rl} {r : Option (Idx → Rl)} (hrun : GridGenRuns ro g isFilled border oob r) :
    ∃ out, r = some out ∧ (∀ i, ¬ g.dims.In i → out i = oob) ∧ ∀ i, g.dims.In i → out i =
      if b i = true then (scaled ro.rr ro.cast g.sx (sqDistZ (targets g.dims border b false) (toZ i))).neg
      else scaled ro.rr ro.cast g.sx (sqDistZ (targets g.dims border b true) (toZ i)) := by
  cases border with
  | true =>
    obtain ⟨out, h1, h2, h3⟩ := borderRuns_eq hok.rq hok.rr hok.rc hok.castPos hok.repr hok.uniform hok.res hok.fits hb hrun
    refine ⟨out, h1, h2, fun i hi => ?_⟩
    rw [h3 i hi]
    simp [targets]
  | false =>
    simp only [GridGenRuns, hok.uniform, not_true_eq_false, if_false, if_true] at hrun
    obtain ⟨out, h1, h2, h3⟩ := genRuns_eq hok.rq hok.rr hok.rc hok.res hok.fits.of_enlarge hb hrun
    refine ⟨out, h1, h2, fun i hi => ?_⟩
    rw [h3 i hi, targets_false, targets_false]

theorem gridRuns_exists (hok : GenOK ro g) (isFilled : ZIdx → Option Bool) (border : Bool) (oob : Rl) :
    ∃ r, GridGenRuns ro g isFilled border oob r := by
  cases border with
  | true =>
    simp only [GridGenRuns, hok.uniform, not_true_eq_false, if_false, Bool.true_eq_false]
    obtain ⟨r1, h1⟩ := genRuns_exists (res := g.sx) (ro := ro) hok.rq hok.fits (borderFilled g.dims isFilled true) oob
    obtain ⟨r2, h2⟩ := genRuns_exists (res := g.sx) (ro := ro) hok.rq hok.fits (borderFilled g.dims isFilled false) oob
    cases r1 with
    | none => exact ⟨none, none, r2, h1, h2, rfl⟩
    | some v1 =>
      cases r2 with
      | none => exact ⟨none, some v1, none, h1, h2, rfl⟩
      | some v2 =>
        by_cases hall : (allIdx g.dims).all (fun i => decide ((enlarge g.dims).In (shift g.dims i))) = true
        · exact ⟨_, some v1, some v2, h1, h2, by simp only [hall, if_true]; rfl⟩
        · exact ⟨none, some v1, some v2, h1, h2, by simp only; rw [if_neg hall]; trivial⟩
  | false =>
    simp only [GridGenRuns, hok.uniform, not_true_eq_false, if_false, if_true]
    exact genRuns_exists hok.rq hok.fits.of_enlarge isFilled oob

theorem genRuns_det {d : Dims} {res : ℝ} {oob : Rl} {r1 r2 : Option (Idx → Rl)}
    (h1 : GenRuns ro d res isFilled oob r1) (h2 : GenRuns ro d res isFilled oob r2) : r1 = r2 := by
  unfold GenRuns at h1 h2
  cases hm : markCells isFilled d with
  | none => rw [hm] at h1 h2; simp only at h1 h2; rw [h1, h2]
  | some FG =>
    obtain ⟨F, G⟩ := FG
    rw [hm] at h1 h2
    obtain ⟨a, c, ha, hc, e1⟩ := h1
    obtain ⟨a', c', ha', hc', e2⟩ := h2
    rw [e1, e2, transformRuns_det ha ha', transformRuns_det hc hc']

theorem gridRuns_det {border : Bool} {oob : Rl} {r1 r2 : Option (Idx → Rl)}
    (h1 : GridGenRuns ro g isFilled border oob r1) (h2 : GridGenRuns ro g isFilled border oob r2) : r1 = r2 := by
  unfold GridGenRuns at h1 h2
  split at h1
  · rw [if_pos ‹_›] at h2; rw [h1, h2]
  · rw [if_neg ‹_›] at h2
    split at h1
    · rw [if_pos ‹_›] at h2; exact genRuns_det h1 h2
    · rw [if_neg ‹_›] at h2
      obtain ⟨a, c, ha, hc, e1⟩ := h1
      obtain ⟨a', c', ha', hc', e2⟩ := h2
      have := genRuns_det ha ha'
      subst this
      have := genRuns_det hc hc'
      subst this
      cases a with
      | none => simp only at e1 e2; rw [e1, e2]
      | some v =>
        cases c with
        | none => simp only at e1 e2; rw [e1, e2]
        | some w =>
          simp only at e1 e2
          split at e1
          · rw [if_pos ‹_›] at e2; rw [e1, e2]
          · rw [if_neg ‹_›] at e2; rw [e1, e2]

/-! ### Triangle inequality -/

theorem sqrt_tri (u1 u2 u3 v1 v2 v3 : ℝ) :
    Real.sqrt ((u1 + v1) ^ 2 + (u2 + v2) ^ 2 + (u3 + v3) ^ 2) ≤
      Real.sqrt (u1 ^ 2 + u2 ^ 2 + u3 ^ 2) + Real.sqrt (v1 ^ 2 + v2 ^ 2 + v3 ^ 2) := by
  have hu : 0 ≤ u1 ^ 2 + u2 ^ 2 + u3 ^ 2 := by positivity
  have hv : 0 ≤ v1 ^ 2 + v2 ^ 2 + v3 ^ 2 := by positivity
  apply Real.sqrt_le_iff.2
  refine ⟨by positivity, ?_⟩
  have hdot : u1 * v1 + u2 * v2 + u3 * v3 ≤ Real.sqrt (u1 ^ 2 + u2 ^ 2 + u3 ^ 2) * Real.sqrt (v1 ^ 2 + v2 ^ 2 + v3 ^ 2) := by
    rw [← Real.sqrt_mul hu]
    apply Real.le_sqrt_of_sq_le
    nlinarith [sq_nonneg (u1 * v2 - u2 * v1), sq_nonneg (u1 * v3 - u3 * v1), sq_nonneg (u2 * v3 - u3 * v2)]
  have e1 := Real.sq_sqrt hu
  have e2 := Real.sq_sqrt hv
  nlinarith

theorem sqz_real (p q : ZIdx) : ((sqz p q : ℕ) : ℝ) =
    ((p.1 : ℝ) - q.1) ^ 2 + ((p.2.1 : ℝ) - q.2.1) ^ 2 + ((p.2.2 : ℝ) - q.2.2) ^ 2 := by
  have := natAbs_sq_sum (p.1 - q.1) (p.2.1 - q.2.1) (p.2.2 - q.2.2)
  unfold sqz
  have h2 : ((((p.1 - q.1) ^ 2 + (p.2.1 - q.2.1) ^ 2 + (p.2.2 - q.2.2) ^ 2).natAbs : ℕ) : ℝ) =
    ((((p.1 - q.1) ^ 2 + (p.2.1 - q.2.1) ^ 2 + (p.2.2 - q.2.2) ^ 2).natAbs : ℤ) : ℝ) := (Int.cast_natCast _).symm
  rw [h2, this]
  push_cast
  ring

theorem sqz_tri (p q r : ZIdx) : Real.sqrt (sqz p r) ≤ Real.sqrt (sqz p q) + Real.sqrt (sqz q r) := by
  rw [sqz_real, sqz_real, sqz_real]
  have := sqrt_tri ((p.1 : ℝ) - q.1) ((p.2.1 : ℝ) - q.2.1) ((p.2.2 : ℝ) - q.2.2)
    ((q.1 : ℝ) - r.1) ((q.2.1 : ℝ) - r.2.1) ((q.2.2 : ℝ) - r.2.2)
  refine le_trans (le_of_eq ?_) this
  congr 1
  ring

theorem sqz_comm (p q : ZIdx) : sqz p q = sqz q p := by
  unfold sqz
  congr 1
  ring

theorem sqDistZ_coe {A : Set ZIdx} {q : ZIdx} {n : ℕ} :
    sqDistZ A q = n ↔ (∃ p ∈ A, sqz q p = n) ∧ ∀ p ∈ A, n ≤ sqz q p := by
  constructor
  · intro h
    have hle : ∀ p ∈ A, n ≤ sqz q p := by
      intro p hp
      have : sqDistZ A q ≤ ((sqz q p : ℕ) : ℕ∞) := iInf₂_le p hp
      rw [h] at this
      exact_mod_cast this
    refine ⟨?_, hle⟩
    by_contra hcon
    push Not at hcon
    have : ((n + 1 : ℕ) : ℕ∞) ≤ sqDistZ A q := by
      refine le_iInf₂ fun p hp => ?_
      have h1 := hle p hp
      have h2 := hcon p hp
      exact_mod_cast (by omega : n + 1 ≤ sqz q p)
    rw [h] at this
    have : n + 1 ≤ n := by exact_mod_cast this
    omega
  · rintro ⟨⟨p, hp, hn⟩, hle⟩
    apply le_antisymm
    · rw [← hn]; exact iInf₂_le p hp
    · exact le_iInf₂ fun p hp => by exact_mod_cast hle p hp

theorem sqDistZ_top {A : Set ZIdx} {q : ZIdx} : sqDistZ A q = ⊤ ↔ A = ∅ := by
  constructor
  · intro h
    by_contra hne
    obtain ⟨p, hp⟩ := Set.nonempty_iff_ne_empty.2 hne
    have : sqDistZ A q ≤ ((sqz q p : ℕ) : ℕ∞) := iInf₂_le p hp
    rw [h] at this
    exact ENat.natCast_ne_top _ (top_le_iff.1 this)
  · rintro rfl
    simp [sqDistZ]

theorem sqDistZ_lip {A : Set ZIdx} {p q : ZIdx} {m n : ℕ} (hp : sqDistZ A p = m) (hq : sqDistZ A q = n) :
    |Real.sqrt m - Real.sqrt n| ≤ Real.sqrt (sqz p q) := by
  obtain ⟨⟨a, ha, ea⟩, la⟩ := sqDistZ_coe.1 hp
  obtain ⟨⟨c, hc, ec⟩, lc⟩ := sqDistZ_coe.1 hq
  have h1 : Real.sqrt m ≤ Real.sqrt (sqz p q) + Real.sqrt n := by
    refine le_trans (Real.sqrt_le_sqrt (show (m : ℝ) ≤ (sqz p c : ℕ) by exact_mod_cast la c hc)) ?_
    rw [← ec]
    exact sqz_tri p q c
  have h2 : Real.sqrt n ≤ Real.sqrt (sqz p q) + Real.sqrt m := by
    refine le_trans (Real.sqrt_le_sqrt (show (n : ℝ) ≤ (sqz q a : ℕ) by exact_mod_cast lc a ha)) ?_
    rw [← ea, sqz_comm p q]
    exact sqz_tri q p a
  rw [abs_le]
  constructor <;> linarith

end VGT.EDT
