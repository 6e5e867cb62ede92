import Verif.Model.SDFGen
import Verif.Lemmas.EDT3
import Verif.Spec.SDF

set_option autoImplicit false

namespace VGT.EDT
open VGT VGT.Par VGT.Spec

/-! ### Marking -/

theorem mem_allIdx {d : Dims} {i : Idx} : i ∈ allIdx d ↔ d.In i := by
  obtain ⟨x, y, z⟩ := i
  simp only [allIdx, List.mem_flatMap, List.mem_range, List.mem_map, Prod.mk.injEq, Dims.In]
  constructor
  · rintro ⟨a, ha, b, hb, c, hc, rfl, rfl, rfl⟩
    exact ⟨ha, hb, hc⟩
  · rintro ⟨ha, hb, hc⟩
    exact ⟨x, ha, y, hb, z, hc, rfl, rfl, rfl⟩

theorem markLoop_eq {isFilled : ZIdx → Option Bool} {b : Idx → Bool} :
    ∀ (l : List Idx) (F G : Fld), (∀ i ∈ l, isFilled (toZ i) = some (b i)) →
      ∃ F' G', markLoop isFilled l (F, G) = some (F', G') ∧
        (∀ i ∈ l, F' i = if b i = true then .fin 0 else F i) ∧
        (∀ i ∈ l, G' i = if b i = false then .fin 0 else G i) ∧
        (∀ i, i ∉ l → F' i = F i ∧ G' i = G i)
  | [], F, G, _ => ⟨F, G, rfl, by simp, by simp, by simp⟩
  | i :: is, F, G, h => by
    have hi := h i List.mem_cons_self
    have ht : ∀ j ∈ is, isFilled (toZ j) = some (b j) := fun j hj => h j (List.mem_cons_of_mem _ hj)
    cases hb : b i with
    | true =>
      obtain ⟨F', G', h1, h2, h3, h4⟩ := markLoop_eq (b := b) is (Prog.set F i (.fin 0)) G ht
      refine ⟨F', G', ?_, ?_, ?_, ?_⟩
      · simp only [markLoop, hi, hb]; exact h1
      · intro j hj
        by_cases hjs : j ∈ is
        · rw [h2 j hjs]
          by_cases hji : j = i
          · subst hji; simp [Prog.set, hb]
          · simp [Prog.set, hji]
        · have : j = i := by simpa [hjs] using hj
          subst this
          rw [(h4 j hjs).1]; simp [Prog.set, hb]
      · intro j hj
        by_cases hjs : j ∈ is
        · exact h3 j hjs
        · have : j = i := by simpa [hjs] using hj
          subst this
          rw [(h4 j hjs).2]; simp [hb]
      · intro j hj
        simp only [List.mem_cons, not_or] at hj
        rw [(h4 j hj.2).1, (h4 j hj.2).2]
        simp [Prog.set, hj.1]
    | false =>
      obtain ⟨F', G', h1, h2, h3, h4⟩ := markLoop_eq (b := b) is F (Prog.set G i (.fin 0)) ht
      refine ⟨F', G', ?_, ?_, ?_, ?_⟩
      · simp only [markLoop, hi, hb]; exact h1
      · intro j hj
        by_cases hjs : j ∈ is
        · exact h2 j hjs
        · have : j = i := by simpa [hjs] using hj
          subst this
          rw [(h4 j hjs).1]; simp [hb]
      · intro j hj
        by_cases hjs : j ∈ is
        · rw [h3 j hjs]
          by_cases hji : j = i
          · subst hji; simp [Prog.set, hb]
          · simp [Prog.set, hji]
        · have : j = i := by simpa [hjs] using hj
          subst this
          rw [(h4 j hjs).2]; simp [Prog.set, hb]
      · intro j hj
        simp only [List.mem_cons, not_or] at hj
        rw [(h4 j hj.2).1, (h4 j hj.2).2]
        simp [Prog.set, hj.1]

theorem markCells_eq {isFilled : ZIdx → Option Bool} {b : Idx → Bool} {d : Dims}
    (h : ∀ i, d.In i → isFilled (toZ i) = some (b i)) :
    ∃ F G, markCells isFilled d = some (F, G) ∧
      (∀ i, d.In i → F i = if b i = true then .fin 0 else .pinf) ∧
      (∀ i, d.In i → G i = if b i = false then .fin 0 else .pinf) := by
  obtain ⟨F, G, h1, h2, h3, _⟩ := markLoop_eq (b := b) (allIdx d) (fun _ => .pinf) (fun _ => .pinf)
    (fun i hi => h i (mem_allIdx.1 hi))
  exact ⟨F, G, h1, fun i hi => h2 i (mem_allIdx.2 hi), fun i hi => h3 i (mem_allIdx.2 hi)⟩

theorem markLoop_none {isFilled : ZIdx → Option Bool} :
    ∀ (l : List Idx) (s : Fld × Fld), (∃ i ∈ l, isFilled (toZ i) = none) → markLoop isFilled l s = none
  | [], _, h => by simp at h
  | i :: is, (F, G), ⟨j, hj, hn⟩ => by
    simp only [markLoop]
    cases hi : isFilled (toZ i) with
    | none => rfl
    | some b =>
      have : j ∈ is := by
        rcases List.mem_cons.1 hj with rfl | h
        · rw [hi] at hn; cases hn
        · exact h
      cases b <;> exact markLoop_none is _ ⟨j, this, hn⟩

/-! ### Distances -/

theorem sq3_self (i : Idx) : sq3 i i = 0 := by simp [sq3, sqd]

theorem sq3_pos {i j : Idx} (h : i ≠ j) : 1 ≤ sq3 i j := by
  by_contra hc
  apply h
  obtain ⟨x, y, z⟩ := i
  obtain ⟨x', y', z'⟩ := j
  have h0 : sq3 (x, y, z) (x', y', z') = 0 := by omega
  simp only [sq3, sqd, Nat.add_eq_zero_iff] at h0
  simp only [Prod.mk.injEq]
  have e : ∀ a b : ℕ, ((a : ℤ) - (b : ℤ)).natAbs ^ 2 = 0 → a = b := by
    intro a b hab
    have := pow_eq_zero_iff (n := 2) (by norm_num) |>.1 hab
    omega
  exact ⟨e _ _ h0.1.1, e _ _ h0.1.2, e _ _ h0.2⟩

theorem sqDist_mem {A : Set Idx} {q : Idx} (h : q ∈ A) : sqDist A q = 0 := by
  apply le_antisymm _ zero_le
  have : sqDist A q ≤ ((sq3 q q : ℕ) : ℕ∞) := iInf₂_le q h
  rw [sq3_self] at this
  simpa using this

theorem sqDist_pos {A : Set Idx} {q : Idx} (h : q ∉ A) : 1 ≤ sqDist A q := by
  refine le_iInf₂ fun p hp => ?_
  have : q ≠ p := fun e => h (e ▸ hp)
  exact_mod_cast sq3_pos this

theorem sqDist_anti {A B : Set Idx} (h : A ⊆ B) (q : Idx) : sqDist B q ≤ sqDist A q :=
  le_iInf₂ fun p hp => iInf₂_le p (h hp)

theorem sqDist_top {A : Set Idx} {q : Idx} : sqDist A q = ⊤ ↔ A = ∅ := by
  constructor
  · intro h
    by_contra hne
    obtain ⟨p, hp⟩ := Set.nonempty_iff_ne_empty.2 hne
    have : sqDist A q ≤ ((sq3 q p : ℕ) : ℕ∞) := iInf₂_le p hp
    rw [h] at this
    exact ENat.natCast_ne_top _ (top_le_iff.1 this)
  · rintro rfl
    simp [sqDist]

/-- The minimum is attained. -/
theorem sqDist_coe {A : Set Idx} {q : Idx} {n : ℕ} :
    sqDist A q = n ↔ (∃ p ∈ A, sq3 q p = n) ∧ ∀ p ∈ A, n ≤ sq3 q p := by
  constructor
  · intro h
    have hle : ∀ p ∈ A, n ≤ sq3 q p := by
      intro p hp
      have : sqDist A q ≤ ((sq3 q p : ℕ) : ℕ∞) := iInf₂_le p hp
      rw [h] at this
      exact_mod_cast this
    refine ⟨?_, hle⟩
    by_contra hcon
    push Not at hcon
    have : ((n + 1 : ℕ) : ℕ∞) ≤ sqDist A q := by
      refine le_iInf₂ fun p hp => ?_
      have h1 := hle p hp
      have h2 := hcon p hp
      exact_mod_cast (by omega : n + 1 ≤ sq3 q p)
    rw [h] at this
    have : n + 1 ≤ n := by exact_mod_cast this
    omega
  · rintro ⟨⟨p, hp, hn⟩, hle⟩
    apply le_antisymm
    · rw [← hn]; exact iInf₂_le p hp
    · exact le_iInf₂ fun p hp => by exact_mod_cast hle p hp

/-! ### Values -/

theorem scaled_top (r c : ℝ → ℝ) (res : ℝ) : scaled r c res ⊤ = .pinf := rfl
theorem scaled_coe (r c : ℝ → ℝ) (res : ℝ) (n : ℕ) :
    scaled r c res (n : ℕ∞) = .fin (c (r (r (Real.sqrt n) * res))) := rfl

section
variable {ro : Rounding} {res : ℝ}

theorem mulSqrt_enc (h : IsRounding ro.rr) (hres : 0 < res) (D : ℕ∞) :
    Rl.mulFin ro.rr (Rl.sqrt ro.rr (Rl.ofFl (enc D))) res = scaled ro.rr id res D := by
  cases D using ENat.recTopCoe with
  | top => simp [Rl.ofFl, Rl.sqrt, Rl.mulFin, hres, scaled_top]
  | coe n =>
    have : ¬ ((n : ℝ) < 0) := not_lt.2 (Nat.cast_nonneg n)
    simp [Rl.ofFl, Rl.sqrt, Rl.mulFin, scaled_coe, this]

theorem scaled_zero (h : IsRounding ro.rr) : scaled ro.rr id res 0 = .fin 0 := by
  have : scaled ro.rr id res ((0 : ℕ) : ℕ∞) = .fin 0 := by rw [scaled_coe]; simp [h.zero]
  simpa using this

theorem cellValue_free (h : IsRounding ro.rr) (hres : 0 < res) (D : ℕ∞) :
    cellValue ro res (enc D) (enc 0) = scaled ro.rr ro.cast res D := by
  unfold cellValue
  simp only [mulSqrt_enc h hres, scaled_zero h]
  cases D using ENat.recTopCoe with
  | top => simp [scaled_top, Rl.sub, Rl.cast]
  | coe n => simp [scaled_coe, Rl.sub, Rl.cast, h.idem]

theorem cellValue_filled (h : IsRounding ro.rr) (hc : IsRounding ro.cast) (hres : 0 < res) (D : ℕ∞) :
    cellValue ro res (enc 0) (enc D) = (scaled ro.rr ro.cast res D).neg := by
  unfold cellValue
  simp only [mulSqrt_enc h hres, scaled_zero h]
  cases D using ENat.recTopCoe with
  | top => simp [scaled_top, Rl.sub, Rl.cast, Rl.neg]
  | coe n => simp [scaled_coe, Rl.sub, Rl.cast, Rl.neg, h.neg, hc.neg, h.idem]

/-- The outcome of generation, for every schedule. -/
theorem genRuns_eq {d : Dims} (hq : IsDoubleRounding ro.rq) (h : IsRounding ro.rr) (hc : IsRounding ro.cast)
    (hres : 0 < res) (hd : Fits d) {isFilled : ZIdx → Option Bool} {b : Idx → Bool}
    (hb : ∀ i, d.In i → isFilled (toZ i) = some (b i)) {oob : Rl} {r : Option (Idx → Rl)}
    (hrun : GenRuns ro d res isFilled oob r) :
    ∃ out, r = some out ∧ (∀ i, ¬ d.In i → out i = oob) ∧ ∀ i, d.In i → out i =
      if b i = true then (scaled ro.rr ro.cast res (sqDist {p | d.In p ∧ b p = false} i)).neg
      else scaled ro.rr ro.cast res (sqDist {p | d.In p ∧ b p = true} i) := by
  obtain ⟨F, G, h1, h2, h3⟩ := markCells_eq hb
  simp only [GenRuns, h1] at hrun
  obtain ⟨F', G', hF, hG, rfl⟩ := hrun
  refine ⟨_, rfl, fun i hi => by simp [hi], ?_⟩
  intro i hi
  have eF := (transformRuns_eq hq hd (fun i => b i = true) h2 hF).1 i hi
  have eG := (transformRuns_eq hq hd (fun i => b i = false) h3 hG).1 i hi
  simp only [if_pos hi, eF, eG]
  cases hbi : b i with
  | true =>
    rw [sqDist_mem (A := {p | d.In p ∧ b p = true}) ⟨hi, hbi⟩, cellValue_filled h hc hres]
    simp
  | false =>
    rw [sqDist_mem (A := {p | d.In p ∧ b p = false}) ⟨hi, hbi⟩, cellValue_free h hres]
    simp

theorem genRuns_exists {d : Dims} (hq : IsDoubleRounding ro.rq) (hd : Fits d) (isFilled : ZIdx → Option Bool)
    (oob : Rl) : ∃ r, GenRuns ro d res isFilled oob r := by
  unfold GenRuns
  by_cases hex : ∃ i ∈ allIdx d, isFilled (toZ i) = none
  · rw [markCells, markLoop_none _ _ hex]
    exact ⟨none, rfl⟩
  · push Not at hex
    obtain ⟨F, G, h1, h2, h3⟩ := markCells_eq (d := d) (isFilled := isFilled)
      (b := fun i => (isFilled (toZ i)).getD false) (by
        intro i hi
        have := hex i (mem_allIdx.2 hi)
        cases hf : isFilled (toZ i) with
        | none => exact absurd hf this
        | some b => rfl)
    rw [h1]
    obtain ⟨F', hF⟩ := transformRuns_exists hq hd (fun i => (isFilled (toZ i)).getD false = true) h2
    obtain ⟨G', hG⟩ := transformRuns_exists hq hd (fun i => (isFilled (toZ i)).getD false = false) h3
    exact ⟨_, F', G', hF, hG, rfl⟩

/-! ### Order of values -/

theorem Rl.le_refl' {a : Rl} (h : a ≠ .nan) : Rl.le a a := by
  cases a <;> simp_all [Rl.le]

theorem scaled_ne_nan (r c : ℝ → ℝ) (D : ℕ∞) : scaled r c res D ≠ .nan := by
  cases D using ENat.recTopCoe <;> simp [scaled_top, scaled_coe]

theorem scaled_le {r c : ℝ → ℝ} (h : IsRounding r) (hc : IsRounding c) (hres : 0 < res) {D E : ℕ∞} (hDE : D ≤ E) :
    Rl.le (scaled r c res D) (scaled r c res E) := by
  cases E using ENat.recTopCoe with
  | top => cases D using ENat.recTopCoe <;> simp [scaled_top, scaled_coe, Rl.le]
  | coe m =>
    cases D using ENat.recTopCoe with
    | top => simp at hDE
    | coe n =>
      simp only [scaled_coe, Rl.le]
      have hnm : n ≤ m := by exact_mod_cast hDE
      apply hc.mono
      apply h.mono
      apply mul_le_mul_of_nonneg_right _ hres.le
      apply h.mono
      exact Real.sqrt_le_sqrt (by exact_mod_cast hnm)

theorem neg_le {a b : Rl} (h : Rl.le a b) : Rl.le b.neg a.neg := by
  cases a <;> cases b <;> simp_all [Rl.le, Rl.neg]

theorem neg_neg (a : Rl) : a.neg.neg = a := by
  cases a <;> simp [Rl.neg]

theorem scaled_nonneg {r c : ℝ → ℝ} (h : IsRounding r) (hc : IsRounding c) (hres : 0 < res) (D : ℕ∞) :
    Rl.le (.fin 0) (scaled r c res D) := by
  cases D using ENat.recTopCoe with
  | top => simp [scaled_top, Rl.le]
  | coe n =>
    simp only [scaled_coe, Rl.le]
    rw [← hc.zero]
    apply hc.mono
    rw [← h.zero]
    apply h.mono
    apply mul_nonneg _ hres.le
    rw [← h.zero]
    exact h.mono _ _ (Real.sqrt_nonneg _)

theorem Rl.le_trans' {a b c : Rl} (h1 : Rl.le a b) (h2 : Rl.le b c) : Rl.le a c := by
  cases a <;> cases b <;> cases c <;> simp_all [Rl.le]
  exact le_trans h1 h2

/-- A distance to a non-empty set not containing the cell is at least one resolution. -/
theorem scaled_ge {r c : ℝ → ℝ} (h : IsRounding r) (hc : IsRounding c) (hres : 0 < res) (hrr : r res = res)
    {D : ℕ∞} (hD : 1 ≤ D) : Rl.le (.fin (c res)) (scaled r c res D) := by
  have h1 : scaled r c res ((1 : ℕ) : ℕ∞) = .fin (c res) := by
    rw [scaled_coe]; simp [h.one, hrr]
  rw [← h1]
  exact scaled_le h hc hres (by simpa using hD)

/-! ### Virtual border -/

variable {d : Dims} {isFilled : ZIdx → Option Bool} {b : Idx → Bool}

/-- Is this index of the enlarged grid a virtual border cell? -/
def IsBorder (d : Dims) (v : Idx) : Prop :=
  (1 < d.nx ∧ (v.1 = 0 ∨ v.1 = d.nx + 1)) ∨ (1 < d.ny ∧ (v.2.1 = 0 ∨ v.2.1 = d.ny + 1)) ∨
  (1 < d.nz ∧ (v.2.2 = 0 ∨ v.2.2 = d.nz + 1))

instance (d : Dims) (v : Idx) : Decidable (IsBorder d v) := by unfold IsBorder; infer_instance

/-- Undo the shift into the enlarged grid. -/
def unshift (d : Dims) (v : Idx) : Idx :=
  (v.1 - queryOffset d.nx, v.2.1 - queryOffset d.ny, v.2.2 - queryOffset d.nz)

theorem enl_axis {n v : ℕ} (hv : v < n + sizeOffset n) (hb : ¬ (1 < n ∧ (v = 0 ∨ v = n + 1))) :
    v - queryOffset n < n ∧ (v : ℤ) - (queryOffset n : ℕ) = ((v - queryOffset n : ℕ) : ℤ) ∧
    v - queryOffset n + queryOffset n = v := by
  unfold sizeOffset at hv
  unfold queryOffset
  split at hv <;> split <;> omega

theorem unshift_in {v : Idx} (hv : (enlarge d).In v) (hb : ¬ IsBorder d v) :
    d.In (unshift d v) ∧ shift d (unshift d v) = v := by
  obtain ⟨x, y, z⟩ := v
  obtain ⟨h1, h2, h3⟩ := hv
  simp only [IsBorder, not_or] at hb
  have e1 := enl_axis h1 hb.1
  have e2 := enl_axis h2 hb.2.1
  have e3 := enl_axis h3 hb.2.2
  exact ⟨⟨e1.1, e2.1, e3.1⟩, by simp only [shift, unshift]; rw [e1.2.2, e2.2.2, e3.2.2]⟩

theorem cond_axis {n v : ℕ} (h : v < n + sizeOffset n) :
    (sizeOffset n > 0 ∧ ((v : ℤ) = 0 ∨ (v : ℤ) = ((n + sizeOffset n : ℕ) : ℤ) - 1)) ↔
      (1 < n ∧ (v = 0 ∨ v = n + 1)) := by
  unfold sizeOffset at *
  split <;> omega

theorem borderFilled_eq (hb : ∀ i, d.In i → isFilled (toZ i) = some (b i)) (border : Bool) {v : Idx}
    (hv : (enlarge d).In v) :
    borderFilled d isFilled border (toZ v) = some (if IsBorder d v then border else b (unshift d v)) := by
  obtain ⟨x, y, z⟩ := v
  obtain ⟨h1, h2, h3⟩ := id hv
  unfold borderFilled
  by_cases c1 : 1 < d.nx ∧ (x = 0 ∨ x = d.nx + 1)
  · rw [if_pos (show _ ∧ ((toZ (x, y, z)).1 = 0 ∨ (toZ (x, y, z)).1 = ((enlarge d).nx : ℤ) - 1) from
      (cond_axis h1).2 c1), if_pos]
    exact Or.inl c1
  rw [if_neg (show ¬ (_ ∧ ((toZ (x, y, z)).1 = 0 ∨ (toZ (x, y, z)).1 = ((enlarge d).nx : ℤ) - 1)) from
      fun h => c1 ((cond_axis h1).1 h))]
  by_cases c2 : 1 < d.ny ∧ (y = 0 ∨ y = d.ny + 1)
  · rw [if_pos (show _ ∧ ((toZ (x, y, z)).2.1 = 0 ∨ (toZ (x, y, z)).2.1 = ((enlarge d).ny : ℤ) - 1) from
      (cond_axis h2).2 c2), if_pos]
    exact Or.inr (Or.inl c2)
  rw [if_neg (show ¬ (_ ∧ ((toZ (x, y, z)).2.1 = 0 ∨ (toZ (x, y, z)).2.1 = ((enlarge d).ny : ℤ) - 1)) from
      fun h => c2 ((cond_axis h2).1 h))]
  by_cases c3 : 1 < d.nz ∧ (z = 0 ∨ z = d.nz + 1)
  · rw [if_pos (show _ ∧ ((toZ (x, y, z)).2.2 = 0 ∨ (toZ (x, y, z)).2.2 = ((enlarge d).nz : ℤ) - 1) from
      (cond_axis h3).2 c3), if_pos]
    exact Or.inr (Or.inr c3)
  rw [if_neg (show ¬ (_ ∧ ((toZ (x, y, z)).2.2 = 0 ∨ (toZ (x, y, z)).2.2 = ((enlarge d).nz : ℤ) - 1)) from
      fun h => c3 ((cond_axis h3).1 h))]
  have hnb : ¬ IsBorder d (x, y, z) := by
    simp only [IsBorder, not_or]; exact ⟨c1, c2, c3⟩
  rw [if_neg hnb]
  rw [← hb _ (unshift_in hv hnb).1]
  have e1 := (enl_axis h1 c1).2.1
  have e2 := (enl_axis h2 c2).2.1
  have e3 := (enl_axis h3 c3).2.1
  simp only [toZ, unshift]
  rw [e1, e2, e3]

theorem shift_in {i : Idx} (hi : d.In i) : (enlarge d).In (shift d i) ∧ ¬ IsBorder d (shift d i) ∧
    unshift d (shift d i) = i := by
  obtain ⟨x, y, z⟩ := i
  obtain ⟨h1, h2, h3⟩ := hi
  simp only at h1 h2 h3
  refine ⟨⟨?_, ?_, ?_⟩, ?_, ?_⟩
  · simp only [shift, enlarge, sizeOffset, queryOffset]; split <;> omega
  · simp only [shift, enlarge, sizeOffset, queryOffset]; split <;> omega
  · simp only [shift, enlarge, sizeOffset, queryOffset]; split <;> omega
  · simp only [IsBorder, shift, queryOffset]
    split <;> split <;> split <;> omega
  · simp only [shift, unshift]
    simp

/-- Clamp to the layer around the grid. -/
def clampAxis (n : ℕ) (p : ℤ) : ℕ := if n > 1 then (max 0 (min ((n : ℤ) + 1) (p + 1))).toNat else 0

theorem natAbs_sq_sum (a b c : ℤ) :
    (((a ^ 2 + b ^ 2 + c ^ 2).natAbs : ℕ) : ℤ) = a ^ 2 + b ^ 2 + c ^ 2 := by
  apply Int.natAbs_of_nonneg; positivity

theorem sq3_cast (p q : Idx) : ((sq3 p q : ℕ) : ℤ) =
    ((p.1 : ℤ) - q.1) ^ 2 + ((p.2.1 : ℤ) - q.2.1) ^ 2 + ((p.2.2 : ℤ) - q.2.2) ^ 2 := by
  simp only [sq3]
  push_cast
  rw [sqd_cast, sqd_cast, sqd_cast]
  ring

theorem sqz_shift (i v : Idx) :
    sq3 (shift d i) v = sqz (toZ i)
      ((v.1 : ℤ) - queryOffset d.nx, (v.2.1 : ℤ) - queryOffset d.ny, (v.2.2 : ℤ) - queryOffset d.nz) := by
  have : ((sq3 (shift d i) v : ℕ) : ℤ) = ((sqz (toZ i)
      ((v.1 : ℤ) - queryOffset d.nx, (v.2.1 : ℤ) - queryOffset d.ny, (v.2.2 : ℤ) - queryOffset d.nz) : ℕ) : ℤ) := by
    rw [sq3_cast]
    unfold sqz
    rw [natAbs_sq_sum]
    simp only [shift, toZ]
    push_cast
    ring
  exact_mod_cast this

theorem clamp_le {n i : ℕ} {p : ℤ} (hi : i < n) (hp : n ≤ 1 → p = 0) :
    clampAxis n p < n + sizeOffset n ∧ ((i : ℤ) + queryOffset n - clampAxis n p) ^ 2 ≤ ((i : ℤ) - p) ^ 2 := by
  unfold clampAxis sizeOffset queryOffset
  split
  · next h =>
    refine ⟨by omega, ?_⟩
    rcases le_or_gt p (-1) with h1 | h1
    · have hc : (max 0 (min ((n : ℤ) + 1) (p + 1))).toNat = 0 := by omega
      rw [hc]
      push_cast
      nlinarith
    · rcases le_or_gt (n : ℤ) p with h2 | h2
      · have hc : (max 0 (min ((n : ℤ) + 1) (p + 1))).toNat = n + 1 := by omega
        rw [hc]
        push_cast
        nlinarith
      · have hc : ((max 0 (min ((n : ℤ) + 1) (p + 1))).toNat : ℤ) = p + 1 := by omega
        rw [hc]
        apply le_of_eq
        push_cast
        ring
  · next h =>
    have := hp (by omega)
    subst this
    exact ⟨by omega, by simp⟩

theorem axis_zero {n v : ℕ} (hn : n ≤ 1) (hv : v < n + sizeOffset n) : (v : ℤ) - (queryOffset n : ℕ) = 0 := by
  unfold sizeOffset at hv
  unfold queryOffset
  split at hv <;> split <;> omega

theorem clamp_out {n : ℕ} {p : ℤ} (hp : n ≤ 1 → p = 0) (hn : 0 < n) (h : ¬ (0 ≤ p ∧ p < n)) :
    1 < n ∧ (clampAxis n p = 0 ∨ clampAxis n p = n + 1) := by
  unfold clampAxis
  split <;> omega

/-- Nearest cell in the enlarged grid = nearest cell of the grid or outside it. -/
theorem border_sqDist {i : Idx} (hi : d.In i) (P : Idx → Prop) :
    sqDist {v | (enlarge d).In v ∧ (IsBorder d v ∨ P (unshift d v))} (shift d i) =
      sqDistZ ({z | ∃ p, d.In p ∧ P p ∧ z = toZ p} ∪ Outside d.nx d.ny d.nz) (toZ i) := by
  obtain ⟨hx, hy, hz⟩ := id hi
  apply le_antisymm
  · refine le_iInf₂ ?_
    rintro z (⟨p, hp, hP, rfl⟩ | hz')
    · obtain ⟨h1, h2, h3⟩ := shift_in hp
      refine (iInf₂_le (shift d p) ⟨h1, Or.inr (by rw [h3]; exact hP)⟩).trans ?_
      rw [sqz_shift]
      apply le_of_eq
      congr 2
      simp only [shift, toZ]
      push_cast
      simp
    · obtain ⟨px, py, pz⟩ := z
      obtain ⟨ox, oy, oz, hout⟩ := hz'
      simp only at ox oy oz hout
      obtain ⟨a1, a2⟩ := clamp_le hx ox
      obtain ⟨b1, b2⟩ := clamp_le hy oy
      obtain ⟨c1, c2⟩ := clamp_le hz oz
      have hbo : IsBorder d (clampAxis d.nx px, clampAxis d.ny py, clampAxis d.nz pz) := by
        simp only [IsBorder]
        by_cases h1 : 0 ≤ px ∧ px < d.nx
        · by_cases h2 : 0 ≤ py ∧ py < d.ny
          · refine Or.inr (Or.inr (clamp_out oz (by omega) fun h3 => hout ⟨h1.1, h1.2, h2.1, h2.2, h3.1, h3.2⟩))
          · exact Or.inr (Or.inl (clamp_out oy (by omega) h2))
        · exact Or.inl (clamp_out ox (by omega) h1)
      refine (iInf₂_le (clampAxis d.nx px, clampAxis d.ny py, clampAxis d.nz pz) ⟨⟨a1, b1, c1⟩, Or.inl hbo⟩).trans ?_
      · have : (sq3 (shift d i) (clampAxis d.nx px, clampAxis d.ny py, clampAxis d.nz pz) : ℤ) ≤
            (sqz (toZ i) (px, py, pz) : ℕ) := by
          rw [sq3_cast]
          unfold sqz
          rw [natAbs_sq_sum]
          simp only [shift, toZ]
          push_cast
          linarith
        exact_mod_cast this
  · refine le_iInf₂ ?_
    rintro v ⟨hv, hb⟩
    rw [sqz_shift]
    refine iInf₂_le _ ?_
    by_cases hbo : IsBorder d v
    · right
      obtain ⟨vx, vy, vz⟩ := v
      obtain ⟨h1, h2, h3⟩ := hv
      simp only [enlarge] at h1 h2 h3
      simp only [IsBorder] at hbo
      refine ⟨?_, ?_, ?_, ?_⟩
      · exact fun hn => axis_zero hn h1
      · exact fun hn => axis_zero hn h2
      · exact fun hn => axis_zero hn h3
      · simp only [queryOffset]
        split <;> split <;> split <;> omega
    · left
      obtain ⟨h1, h2⟩ := unshift_in hv hbo
      refine ⟨unshift d v, h1, hb.resolve_left hbo, ?_⟩
      obtain ⟨vx, vy, vz⟩ := v
      simp only [IsBorder, not_or] at hbo
      simp only [toZ, unshift]
      rw [(enl_axis hv.1 hbo.1).2.1, (enl_axis hv.2.1 hbo.2.1).2.1, (enl_axis hv.2.2 hbo.2.2).2.1]

theorem sqDistZ_anti {A B : Set ZIdx} (h : A ⊆ B) (q : ZIdx) : sqDistZ B q ≤ sqDistZ A q :=
  le_iInf₂ fun p hp => iInf₂_le p (h hp)

theorem toZ_inj {p q : Idx} (h : toZ p = toZ q) : p = q := by
  obtain ⟨x, y, z⟩ := p
  obtain ⟨x', y', z'⟩ := q
  simpa [toZ] using h

theorem sqDistZ_pos {A : Set ZIdx} {q : ZIdx} (h : q ∉ A) : 1 ≤ sqDistZ A q := by
  refine le_iInf₂ fun p hp => ?_
  have hne : q ≠ p := fun e => h (e ▸ hp)
  have : 1 ≤ sqz q p := by
    by_contra hc
    apply hne
    have h0 : sqz q p = 0 := by omega
    have h1 := natAbs_sq_sum (q.1 - p.1) (q.2.1 - p.2.1) (q.2.2 - p.2.2)
    unfold sqz at h0
    rw [h0] at h1
    have hx : q.1 - p.1 = 0 := by
      have := sq_nonneg (q.1 - p.1); have := sq_nonneg (q.2.1 - p.2.1); have := sq_nonneg (q.2.2 - p.2.2)
      have : (q.1 - p.1) ^ 2 = 0 := by push_cast at h1; linarith
      exact pow_eq_zero_iff (two_ne_zero) |>.1 this
    have hy : q.2.1 - p.2.1 = 0 := by
      have := sq_nonneg (q.1 - p.1); have := sq_nonneg (q.2.1 - p.2.1); have := sq_nonneg (q.2.2 - p.2.2)
      have : (q.2.1 - p.2.1) ^ 2 = 0 := by push_cast at h1; linarith
      exact pow_eq_zero_iff (two_ne_zero) |>.1 this
    have hz : q.2.2 - p.2.2 = 0 := by
      have := sq_nonneg (q.1 - p.1); have := sq_nonneg (q.2.1 - p.2.1); have := sq_nonneg (q.2.2 - p.2.2)
      have : (q.2.2 - p.2.2) ^ 2 = 0 := by push_cast at h1; linarith
      exact pow_eq_zero_iff (two_ne_zero) |>.1 this
    refine Prod.ext (by omega) (Prod.ext (by omega) (by omega))
  exact_mod_cast this

theorem neg_scaled_le_zero {r c : ℝ → ℝ} (h : IsRounding r) (hc : IsRounding c) (hres : 0 < res) (D : ℕ∞) :
    Rl.le (scaled r c res D).neg (.fin 0) := by
  have := neg_le (scaled_nonneg h hc hres D)
  simpa [Rl.neg] using this

/-- The outcome of generation on a grid with a virtual border, for every schedule. -/
theorem borderRuns_eq {g : GridInfo} (hq : IsDoubleRounding ro.rq) (h : IsRounding ro.rr) (hc : IsRounding ro.cast)
    (hpos : 0 < ro.cast g.sx) (hrr : ro.rr g.sx = g.sx)
    (hu : g.Uniform) (hres : 0 < g.sx) (hd : Fits (enlarge g.dims))
    (hb : ∀ i, g.dims.In i → isFilled (toZ i) = some (b i)) {oob : Rl} {r : Option (Idx → Rl)}
    (hrun : GridGenRuns ro g isFilled true oob r) :
    ∃ out, r = some out ∧ (∀ i, ¬ g.dims.In i → out i = oob) ∧ ∀ i, g.dims.In i → out i =
      if b i = true then (scaled ro.rr ro.cast g.sx (sqDistZ ({z | ∃ p, g.dims.In p ∧ b p = false ∧ z = toZ p} ∪
          Outside g.dims.nx g.dims.ny g.dims.nz) (toZ i))).neg
      else scaled ro.rr ro.cast g.sx (sqDistZ ({z | ∃ p, g.dims.In p ∧ b p = true ∧ z = toZ p} ∪
          Outside g.dims.nx g.dims.ny g.dims.nz) (toZ i)) := by
  simp only [GridGenRuns, hu, not_true_eq_false, if_false, Bool.true_eq_false] at hrun
  obtain ⟨rF, rG, h1, h2, h3⟩ := hrun
  obtain ⟨vF, rfl, _, eF⟩ := genRuns_eq hq h hc hres hd
    (b := fun v => if IsBorder g.dims v then true else b (unshift g.dims v))
    (fun v hv => borderFilled_eq hb true hv) h1
  obtain ⟨vG, rfl, _, eG⟩ := genRuns_eq hq h hc hres hd
    (b := fun v => if IsBorder g.dims v then false else b (unshift g.dims v))
    (fun v hv => borderFilled_eq hb false hv) h2
  have hall : (allIdx g.dims).all (fun i => decide ((enlarge g.dims).In (shift g.dims i))) = true := by
    rw [List.all_eq_true]
    intro i hi
    exact decide_eq_true (shift_in (mem_allIdx.1 hi)).1
  simp only [hall, if_true] at h3
  subst h3
  refine ⟨_, rfl, fun i hi => by simp [hi], ?_⟩
  intro i hi
  obtain ⟨s1, s2, s3⟩ := shift_in hi
  have eF' := eF _ s1
  have eG' := eG _ s1
  simp only [s2, s3, if_false] at eF' eG'
  have setF : {p | (enlarge g.dims).In p ∧ (if IsBorder g.dims p then true else b (unshift g.dims p)) = true} =
      {v | (enlarge g.dims).In v ∧ (IsBorder g.dims v ∨ b (unshift g.dims v) = true)} := by
    ext v; simp only [Set.mem_ofPred_eq]
    by_cases hv : IsBorder g.dims v <;> simp [hv]
  have setG : {p | (enlarge g.dims).In p ∧ (if IsBorder g.dims p then false else b (unshift g.dims p)) = false} =
      {v | (enlarge g.dims).In v ∧ (IsBorder g.dims v ∨ b (unshift g.dims v) = false)} := by
    ext v; simp only [Set.mem_ofPred_eq]
    by_cases hv : IsBorder g.dims v <;> simp [hv]
  simp only [if_pos hi]
  cases hbi : b i with
  | true =>
    rw [hbi] at eF' eG'
    simp only [if_true] at eF' eG' ⊢
    rw [setG, border_sqDist hi (fun v => b v = false)] at eG'
    have hneg : ¬ Rl.le (.fin 0) (vF (shift g.dims i)) := by
      rw [eF']
      intro hle
      have hDpos : 1 ≤ sqDist {p | (enlarge g.dims).In p ∧
          (if IsBorder g.dims p then true else b (unshift g.dims p)) = false} (shift g.dims i) := by
        apply sqDist_pos
        rintro ⟨_, hm⟩
        simp [s2, s3, hbi] at hm
      have hge := neg_le (scaled_ge h hc hres hrr hDpos)
      have := Rl.le_trans' hle hge
      simp [Rl.le, Rl.neg] at this
      linarith
    unfold borderCombine
    rw [if_neg hneg, if_pos, eG']
    rw [eG']
    exact neg_scaled_le_zero h hc hres _
  | false =>
    rw [hbi] at eF' eG'
    simp only [Bool.false_eq_true, if_false] at eF' eG' ⊢
    rw [setF, border_sqDist hi (fun v => b v = true)] at eF'
    unfold borderCombine
    rw [if_pos, eF']
    rw [eF']
    exact scaled_nonneg h hc hres _

end
end VGT.EDT
