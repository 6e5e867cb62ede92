import Verif.Props.CoarseBounds
import Verif.Props.Machine

/-!
Rounding errors of gradients.
-/
set_option autoImplicit false

namespace VGT
open VGT.EDT VGT.Spec

/-- `roundedQuery` whose differences of two stored values are rounded with `rs`, the precision of `ScalarType`
(signed_distance_field.hpp:934-947). -/
def storedQuery {K : Type} [Field K] [LinearOrder K] [IsStrictOrderedRing K] [FloorRing K] (r rs : K → K) (norm : (Fin 3 → K) → K)
    (interp : (Fin 3 → K) → (Fin 3 → K) → (Bool → Bool → Bool → K) → (Fin 3 → K) → K) : QueryArith K :=
  { roundedQuery r norm interp with storedSub := fun a b => rs (a - b) }

/-- A rounding with relative error `u` and absolute error `η`. -/
structure RoundErr (r : ℝ → ℝ) (u η : ℝ) : Prop where
  err : ∀ x, |r x - x| ≤ u * |x| + η
  u0 : 0 ≤ u
  eta0 : 0 ≤ η

namespace RoundErr
variable {r : ℝ → ℝ} {u η : ℝ} (h : RoundErr r u η)
include h

theorem near {x y e : ℝ} (hx : |x - y| ≤ e) : |r x - y| ≤ e + u * (|y| + e) + η := by
  have h1 := h.err x
  have h2 : |x| ≤ |y| + e := by
    have := abs_add_le y (x - y)
    rw [add_sub_cancel] at this
    linarith
  have h3 := abs_sub_le (r x) x y
  have h4 : u * |x| ≤ u * (|y| + e) := mul_le_mul_of_nonneg_left h2 h.u0
  linarith

/-- The reciprocal of a computed length. -/
theorem inverse (hu : u ≤ 1 / 1000) {L L' : ℝ} (hL : 0 < L) (hη : η * L ≤ 2 * u) (hL' : |L' - L| ≤ 5 * u * L) :
    |r (1 / L') - 1 / L| ≤ 9 * u / L := by
  have u0 := h.u0
  have hb := abs_le.1 hL'
  have h1 : 995 / 1000 * L ≤ L' := by nlinarith
  have hpos : 0 < L' := lt_of_lt_of_le (by positivity) h1
  have h2 : |1 / L' - 1 / L| ≤ 5 * u * (1000 / 995) / L := by
    rw [div_sub_div _ _ hpos.ne' hL.ne', one_mul, mul_one, abs_div, abs_sub_comm, abs_of_pos (mul_pos hpos hL),
      div_le_div_iff₀ (mul_pos hpos hL) hL]
    have h3 : |L' - L| * L ≤ 5 * u * L * L := mul_le_mul_of_nonneg_right hL' hL.le
    have h4 : 5 * u * (1000 / 995) * (995 / 1000 * L * L) ≤ 5 * u * (1000 / 995) * (L' * L) := by
      refine mul_le_mul_of_nonneg_left ?_ (by positivity)
      exact mul_le_mul_of_nonneg_right h1 hL.le
    linarith
  have h5 := h.near h2
  have hη' : η ≤ 2 * u / L := by rw [le_div_iff₀ hL]; exact hη
  rw [abs_of_pos (by positivity : 0 < 1 / L)] at h5
  have h6 : u * (1 / L + 5 * u * (1000 / 995) / L) ≤ u * (1 / L + 5 * (1 / 1000) * (1000 / 995) / L) := by
    refine mul_le_mul_of_nonneg_left ?_ u0
    gcongr
  have h7 : 0 ≤ u / L := by positivity
  have e1 : 5 * u * (1000 / 995) / L = 5000 / 995 * (u / L) := by ring
  have e2 : u * (1 / L + 5 * (1 / 1000) * (1000 / 995) / L) = 1000 / 995 * (u / L) := by ring
  have e3 : 2 * u / L = 2 * (u / L) := by ring
  have e4 : 9 * u / L = 9 * (u / L) := by ring
  rw [e1] at h5 h6
  rw [e2] at h6
  rw [e3] at hη'
  rw [e4]
  linarith

/-- A computed difference quotient, by way of the reciprocal. -/
theorem quotient (hu : u ≤ 1 / 1000) {D D' L b' α ζ : ℝ} (hα0 : 0 ≤ α) (hα : α ≤ 1 / 1000) (hζ : 0 ≤ ζ) (hL : 0 < L)
    (hD : |D' - D| ≤ α * |D| + ζ) (hb : |b' - 1 / L| ≤ 9 * u / L) :
    |r (D' * b') - D / L| ≤ (11 / 10 * α + 11 * u) * (|D| / L) + 11 / 10 * (ζ / L) + η := by
  have u0 := h.u0
  have hbb : |b'| ≤ (1 + 9 * u) / L := by
    have := abs_add_le (b' - 1 / L) (1 / L)
    rw [sub_add_cancel, abs_of_pos (by positivity : 0 < 1 / L)] at this
    have e : (1 + 9 * u) / L = 1 / L + 9 * u / L := by ring
    linarith
  have h1 : |D' * b' - D / L| ≤ (α * |D| + ζ) * ((1 + 9 * u) / L) + |D| * (9 * u / L) := by
    have e : D' * b' - D / L = (D' - D) * b' + D * (b' - 1 / L) := by ring
    rw [e]
    refine (abs_add_le _ _).trans ?_
    rw [abs_mul, abs_mul]
    refine add_le_add (mul_le_mul hD hbb (abs_nonneg _) ((abs_nonneg _).trans hD)) (mul_le_mul_of_nonneg_left hb (abs_nonneg _))
  obtain ⟨Q, hQ⟩ : ∃ Q, Q = |D| / L := ⟨_, rfl⟩
  obtain ⟨Z, hZ⟩ : ∃ Z, Z = ζ / L := ⟨_, rfl⟩
  have hQ0 : 0 ≤ Q := by rw [hQ]; positivity
  have hZ0 : 0 ≤ Z := by rw [hZ]; positivity
  have h2 : (α * |D| + ζ) * ((1 + 9 * u) / L) + |D| * (9 * u / L) = (α * Q + Z) * (1 + 9 * u) + 9 * u * Q := by
    rw [hQ, hZ]; ring
  rw [h2] at h1
  have h3 : |D / L| = Q := by rw [hQ, abs_div, abs_of_pos hL]
  have h4 := h.near h1
  rw [h3] at h4
  rw [← hQ, ← hZ]
  have hαQ : 0 ≤ α * Q := mul_nonneg hα0 hQ0
  have huQ : 0 ≤ u * Q := mul_nonneg u0 hQ0
  have a1 : (α * Q + Z) * (1 + 9 * u) ≤ (α * Q + Z) * (1009 / 1000) := mul_le_mul_of_nonneg_left (by linarith) (by linarith)
  obtain ⟨e, he⟩ : ∃ e, e = (α * Q + Z) * (1 + 9 * u) + 9 * u * Q := ⟨_, rfl⟩
  rw [← he] at h4
  have he' : e ≤ 1009 / 1000 * (α * Q) + 1009 / 1000 * Z + 9 * (u * Q) := by rw [he]; linarith
  have he0 : 0 ≤ e := by rw [he]; positivity
  have a2 : u * e ≤ 1 / 1000 * e := mul_le_mul_of_nonneg_right hu he0
  linarith

end RoundErr

section
variable {F : Type} (A : QueryArith F) (g : FlSDF F)

/-- What a grid-aligned coarse gradient consists of, in any arithmetic. -/
theorem flCoarseGrid_parts {i : IVec} {edge : Bool} {v : Fin 3 → F} (hv : flCoarseGrid A g i edge = .value v) :
    CellInGrid (axisCells g.dims) i ∧ (edge = true ∨ ¬ OnEdge (axisCells g.dims) i) ∧ ∀ a,
      ((0 < i a ∧ i a < (axisCells g.dims a : ℤ) - 1) ∧
        v a = A.mul (A.storedSub (stored g.data (after (axisCells g.dims) i a)) (stored g.data (before i a)))
          (A.div A.one (A.mul A.two g.s))) ∨
      v a = (if A.lt A.zero (A.mul (A.ofInt (after (axisCells g.dims) i a a - before i a a)) g.s) then
        A.mul (A.sub (stored g.data (after (axisCells g.dims) i a)) (stored g.data (before i a)))
          (A.div A.one (A.mul (A.ofInt (after (axisCells g.dims) i a a - before i a a)) g.s))
        else A.zero) := by
  unfold flCoarseGrid at hv
  by_cases hi : CellInGrid (axisCells g.dims) i
  swap
  · rw [if_neg (fun h => hi (inGrid_axis.1 h))] at hv
    cases hv
  have hi' := inGrid_axis.2 hi
  rw [if_pos hi'] at hv
  have eb : ∀ a, before i a a = nearLow (i a) := fun a => by unfold before nearLow; rw [if_pos rfl]
  have ea : ∀ a, after (axisCells g.dims) i a a = nearHigh (axisCells g.dims a) (i a) := fun a => by
    unfold after nearHigh; rw [if_pos rfl]
  have mb : ∀ a, moveTo i a (nearLow (i a)) = before i a := fun a => moveTo_before i a
  have ma : ∀ a, moveTo i a (nearHigh (axisCells g.dims a) (i a)) = after (axisCells g.dims) i a := fun a => moveTo_after _ i a
  by_cases he : OnEdge (axisCells g.dims) i
  · have hne := (not_congr (not_onEdge hi')).2 (not_not.2 he)
    rw [if_neg hne] at hv
    cases edge
    · cases hv
    · rw [if_pos rfl, flEdge_some A g hi, flEdge_some A g hi, flEdge_some A g hi] at hv
      simp only [Answer.ofOption, flVec3, Option.bind_some, Option.map_some, Answer.value.injEq] at hv
      refine ⟨hi, .inl rfl, fun a => .inr ?_⟩
      rw [← hv, ea, eb, ← ma, ← mb]
      fin_cases a <;> rfl
  · have hne := (not_onEdge hi').2 he
    rw [if_pos hne, flInterior_some A g hi hne.1 hne.2.2.2.1, flInterior_some A g hi hne.2.1 hne.2.2.2.2.1,
      flInterior_some A g hi hne.2.2.1 hne.2.2.2.2.2] at hv
    simp only [Answer.ofOption, flVec3, Option.bind_some, Option.map_some, Answer.value.injEq] at hv
    have hp : ∀ a, 0 < i a ∧ i a < (axisCells g.dims a : ℤ) - 1 := by
      intro a; fin_cases a
      · exact ⟨hne.1, hne.2.2.2.1⟩
      · exact ⟨hne.2.1, hne.2.2.2.2.1⟩
      · exact ⟨hne.2.2.1, hne.2.2.2.2.2⟩
    refine ⟨hi, .inr he, fun a => .inl ⟨hp a, ?_⟩⟩
    have e1 : after (axisCells g.dims) i a = moveTo i a (i a + 1) := by
      rw [← ma]; unfold nearHigh; congr 1; have := hp a; omega
    have e2 : before i a = moveTo i a (i a - 1) := by
      rw [← mb]; unfold nearLow; congr 1; have := hp a; omega
    rw [← hv, e1, e2]
    fin_cases a <;> rfl

end

section
variable {r rs : ℝ → ℝ} {u η us ηs : ℝ} {norm : (Fin 3 → ℝ) → ℝ}
  {interp : (Fin 3 → ℝ) → (Fin 3 → ℝ) → (Bool → Bool → Bool → ℝ) → (Fin 3 → ℝ) → ℝ} {g : SDFGrid ℝ} {inv : ℝ}
  {toGrid : Vec4 ℝ → Fin 3 → ℝ} {toWorld rotate : (Fin 3 → ℝ) → Fin 3 → ℝ}

/-- One component of a computed grid-aligned coarse gradient. -/
theorem coarse_axis (h : RoundErr r u η) (hs : RoundErr rs us ηs) (h0 : r 0 = 0) (hu : u ≤ 1 / 1000) (hus : us ≤ 1 / 1000) (hle : u ≤ us)
    (hηle : η ≤ ηs) (hpos : 0 < g.s) (hη : η ≤ u) (hηs : η ≤ u * g.s) (hηs' : η * g.s ≤ u) {i : IVec} {edge : Bool} {v : Fin 3 → ℝ}
    (hv : flCoarseGrid (storedQuery r rs norm interp) (g.computed inv toGrid toWorld rotate) i edge = .value v) (a : Fin 3) :
    (axisCells g.dims a = 1 → v a = 0) ∧ (axisCells g.dims a ≠ 1 → ∃ k : ℝ, (k = 1 ∨ k = 2) ∧
      k = ((after (axisCells g.dims) i a a - before i a a : ℤ) : ℝ) ∧
      |v a - (stored g.data (after (axisCells g.dims) i a) - stored g.data (before i a)) / (k * g.s)| ≤
        (11 / 10 * us + 11 * u) * (|stored g.data (after (axisCells g.dims) i a) - stored g.data (before i a)| / (k * g.s)) +
          11 / 10 * (ηs / (k * g.s)) + η) := by
  obtain ⟨hi, -, hva⟩ := flCoarseGrid_parts _ _ hv
  have hi : CellInGrid (axisCells g.dims) i := hi
  have hia := hi a
  have u0 := h.u0
  obtain ⟨D, hD⟩ : ∃ D, D = stored g.data (after (axisCells g.dims) i a) - stored g.data (before i a) := ⟨_, rfl⟩
  have eb : before i a a = max 0 (i a - 1) := by unfold before; rw [if_pos rfl]
  have ea : after (axisCells g.dims) i a a = min ((axisCells g.dims a : ℤ) - 1) (i a + 1) := by
    unfold after; rw [if_pos rfl]
  have near1 : |r 1 - 1| ≤ 2 * u := by have := h.err 1; rw [abs_one] at this; linarith
  have near2 : |r 2 - 2| ≤ 3 * u := by have := h.err 2; rw [abs_two] at this; linarith
  -- the computed length
  have len : ∀ {k k' : ℝ}, (k = 1 ∨ k = 2) → |k' - k| ≤ 2 * u * k → |r (k' * g.s) - k * g.s| ≤ 5 * u * (k * g.s) := by
    intro k k' hk hk'
    have hk0 : 1 ≤ k := by rcases hk with rfl | rfl <;> norm_num
    have h1 : |k' * g.s - k * g.s| ≤ 2 * u * k * g.s := by
      rw [← sub_mul, abs_mul, abs_of_pos hpos]
      exact mul_le_mul_of_nonneg_right hk' hpos.le
    have h2 := h.near h1
    have hks : g.s ≤ k * g.s := by nlinarith
    have hks0 : 0 < k * g.s := by linarith
    rw [abs_of_pos hks0] at h2
    have h3 : u * (k * g.s + 2 * u * k * g.s) ≤ u * (k * g.s + 2 * (1 / 1000) * (k * g.s)) := by
      refine mul_le_mul_of_nonneg_left ?_ u0
      have : u * (k * g.s) ≤ 1 / 1000 * (k * g.s) := mul_le_mul_of_nonneg_right hu hks0.le
      linarith
    have h4 : u * g.s ≤ u * (k * g.s) := mul_le_mul_of_nonneg_left hks u0
    rcases hk with rfl | rfl
    · have : 0 ≤ u * g.s := by positivity
      nlinarith
    · have : 0 ≤ u * g.s := by positivity
      nlinarith
  have fin : ∀ {k L' D' : ℝ}, (k = 1 ∨ k = 2) → |L' - k * g.s| ≤ 5 * u * (k * g.s) → |D' - D| ≤ us * |D| + ηs →
      |r (D' * r (1 / L')) - D / (k * g.s)| ≤ (11 / 10 * us + 11 * u) * (|D| / (k * g.s)) + 11 / 10 * (ηs / (k * g.s)) + η := by
    intro k L' D' hk hL hD'
    have hk0 : 1 ≤ k ∧ k ≤ 2 := by rcases hk with rfl | rfl <;> norm_num
    have hks0 : 0 < k * g.s := by nlinarith
    have hηL : η * (k * g.s) ≤ 2 * u := by
      have : η * (k * g.s) = k * (η * g.s) := by ring
      rw [this]
      have h1 : 0 ≤ η * g.s := mul_nonneg h.eta0 hpos.le
      nlinarith
    exact h.quotient hu hs.u0 hus hs.eta0 hks0 hD' (h.inverse hu hks0 hηL hL)
  have hk12 : axisCells g.dims a ≠ 1 → (((after (axisCells g.dims) i a a - before i a a : ℤ) : ℝ) = 1 ∨
      ((after (axisCells g.dims) i a a - before i a a : ℤ) : ℝ) = 2) := by
    intro h1
    have : after (axisCells g.dims) i a a - before i a a = 1 ∨ after (axisCells g.dims) i a a - before i a a = 2 := by
      rw [ea, eb]; omega
    rcases this with h | h <;> rw [h] <;> norm_num
  rw [← hD]
  rcases hva a with ⟨hint, hv'⟩ | hv'
  · have hint : 0 < i a ∧ i a < (axisCells g.dims a : ℤ) - 1 := hint
    refine ⟨fun h1 => by omega, fun h1 => ⟨_, hk12 h1, rfl, ?_⟩⟩
    have e2 : ((after (axisCells g.dims) i a a - before i a a : ℤ) : ℝ) = 2 := by
      have : after (axisCells g.dims) i a a - before i a a = 2 := by rw [ea, eb]; omega
      rw [this]; norm_num
    rw [e2]
    have hv2 : v a = r (rs D * r (1 / r (2 * g.s))) := by rw [hv', hD]; rfl
    rw [hv2]
    exact fin (.inr rfl) (len (.inr rfl) (by rw [sub_self, abs_zero]; positivity)) (hs.err D)
  · have hv2 : v a = if 0 < r (r ((after (axisCells g.dims) i a a - before i a a : ℤ) : ℝ) * g.s) then
        r (r D * r (1 / r (r ((after (axisCells g.dims) i a a - before i a a : ℤ) : ℝ) * g.s))) else 0 := by
      rw [hv', hD]
      simp only [storedQuery, roundedQuery, roundedArith, SDFGrid.computed, decide_eq_true_eq]
    constructor
    · intro h1
      have : after (axisCells g.dims) i a a - before i a a = 0 := by rw [ea, eb]; omega
      rw [hv2, this, Int.cast_zero, h0, zero_mul, h0, if_neg (lt_irrefl _)]
    · intro h1
      refine ⟨_, hk12 h1, rfl, ?_⟩
      obtain ⟨k, hk⟩ : ∃ k : ℝ, k = ((after (axisCells g.dims) i a a - before i a a : ℤ) : ℝ) := ⟨_, rfl⟩
      have hk' := hk12 h1
      rw [← hk] at hk' hv2 ⊢
      have hrk : |r k - k| ≤ 2 * u * k := by rcases hk' with rfl | rfl <;> linarith
      have hL := len hk' hrk
      have hk0 : 1 ≤ k := by rcases hk' with rfl | rfl <;> norm_num
      have hks0 : 0 < k * g.s := by nlinarith
      have hLpos : 0 < r (r k * g.s) := by
        have := (abs_le.1 hL).1
        nlinarith
      rw [hv2, if_pos hLpos]
      refine fin hk' hL ((h.err D).trans ?_)
      have : u * |D| ≤ us * |D| := mul_le_mul_of_nonneg_right hle (abs_nonneg _)
      linarith

end

/-! ### Fine gradients -/

section
variable {F : Type} (A : QueryArith F) (g : FlSDF F)

theorem flAll_value : ∀ {l : List (Answer F)} {q : List (Option F)}, flAll l = .value q → q = l.map answered
  | [], q, h => by cases h; rfl
  | .undefined :: l, q, h => by cases h
  | .throws :: l, q, h => by cases h
  | .empty :: l, q, h => by
    unfold flAll at h
    rcases hl : flAll l with _ | _ | _ | q'
    · rw [hl] at h; cases h
    · rw [hl] at h; cases h
    · rw [hl] at h; cases h
    · rw [hl] at h
      cases h
      rw [flAll_value hl]
      rfl
  | .value x :: l, q, h => by
    unfold flAll at h
    rcases hl : flAll l with _ | _ | _ | q'
    · rw [hl] at h; cases h
    · rw [hl] at h; cases h
    · rw [hl] at h; cases h
    · rw [hl] at h
      cases h
      rw [flAll_value hl]
      rfl

/-- What a fine gradient consists of, in any arithmetic. -/
theorem flFine_parts {p : Fin 3 → F} {nominal : F} {v : Fin 3 → F} (hv : flFine A g p nominal = .value v) (a : Fin 3) :
    flAxisFine A (answered (flEstimate A g ⟨p, A.one⟩)) (answered (flEstimate A g (flMoved A p a (A.sub (p a) (A.abs nominal)))))
      (answered (flEstimate A g (flMoved A p a (A.add (p a) (A.abs nominal))))) (p a) (A.sub (p a) (A.abs nominal))
      (A.add (p a) (A.abs nominal)) = some (v a) := by
  unfold flFine at hv
  dsimp only at hv
  rcases hi : flIndexOf A g ⟨p, A.one⟩ with _ | i
  · rw [hi] at hv; cases hv
  rw [hi] at hv
  dsimp only at hv
  split_ifs at hv with hin
  rcases hall : flAll [flEstimate A g ⟨p, A.one⟩,
          flEstimate A g (flMoved A p 0 (A.sub (p 0) (A.abs nominal))), flEstimate A g (flMoved A p 0 (A.add (p 0) (A.abs nominal))),
          flEstimate A g (flMoved A p 1 (A.sub (p 1) (A.abs nominal))), flEstimate A g (flMoved A p 1 (A.add (p 1) (A.abs nominal))),
          flEstimate A g (flMoved A p 2 (A.sub (p 2) (A.abs nominal))), flEstimate A g (flMoved A p 2 (A.add (p 2) (A.abs nominal)))]
    with _ | _ | _ | l
  · rw [hall] at hv; cases hv
  · rw [hall] at hv; cases hv
  · rw [hall] at hv; cases hv
  · rw [hall] at hv
    have := flAll_value hall
    subst this
    dsimp only [List.map] at hv
    have three : ∀ {x y z : Option F} {v : Fin 3 → F}, Answer.ofOption (flVec3 x y z) = .value v →
        x = some (v 0) ∧ y = some (v 1) ∧ z = some (v 2) := by
      intro x y z v h
      rcases x with _ | x <;> rcases y with _ | y <;> rcases z with _ | z <;> simp [flVec3, Answer.ofOption] at h ⊢
      subst h
      simp
    obtain ⟨h0, h1, h2⟩ := three hv
    fin_cases a
    · exact h0
    · exact h1
    · exact h2

end

/-- A difference quotient of computed values at computed places. -/
theorem RoundErr.slope {r : ℝ → ℝ} {u η : ℝ} (h : RoundErr r u η) (hu : u ≤ 1 / 1000) {e1 e2 e1' e2' Δ H L E δ : ℝ} (hH : 0 < H)
    (h1 : |e1' - e1| ≤ E) (h2 : |e2' - e2| ≤ E) (hL : |e1 - e2| ≤ L * H) (hΔ : |Δ - H| ≤ 2 * δ)
    (hδ : 2 * δ ≤ 9 / 100 * H) (hη : η ≤ u * H) (hη' : η ≤ u) (hL1 : 1 ≤ L) :
    |r (r (e1' - e2') / r Δ) - (e1 - e2) / H| ≤ (9 / 4 * E + 9 / 4 * L * δ) / H + 10 * u * L := by
  have u0 := h.u0
  have hE : 0 ≤ E := (abs_nonneg _).trans h1
  have hδ0 : 0 ≤ 2 * δ := (abs_nonneg _).trans hΔ
  have hLH : 0 ≤ L * H := by positivity
  -- the window
  obtain ⟨W, hW⟩ : ∃ W, W = r Δ := ⟨_, rfl⟩
  have hWb : |W - H| ≤ 2 * δ + 21 / 10 * (u * H) := by
    have h3 := h.near hΔ
    rw [abs_of_pos hH, ← hW] at h3
    have : u * (H + 2 * δ) ≤ u * (H + 9 / 100 * H) := mul_le_mul_of_nonneg_left (by linarith) u0
    have : 0 ≤ u * H := by positivity
    linarith
  have huH : u * H ≤ 1 / 1000 * H := mul_le_mul_of_nonneg_right hu hH.le
  have hW9 : 9 / 10 * H ≤ W := by
    have := (abs_le.1 hWb).1
    linarith
  have hWpos : 0 < W := lt_of_lt_of_le (by positivity) hW9
  -- the difference
  obtain ⟨G, hG⟩ : ∃ G, G = e1 - e2 := ⟨_, rfl⟩
  obtain ⟨G', hG'⟩ : ∃ G', G' = r (e1' - e2') := ⟨_, rfl⟩
  rw [← hG] at hL ⊢
  rw [← hG', ← hW]
  have hGb : |G' - G| ≤ 2002 / 1000 * E + 2 * (u * (L * H)) := by
    have h3 : |(e1' - e2') - G| ≤ 2 * E := by
      rw [hG, show e1' - e2' - (e1 - e2) = (e1' - e1) - (e2' - e2) by ring]
      have := abs_sub (e1' - e1) (e2' - e2)
      linarith
    have h4 := h.near h3
    rw [← hG'] at h4
    have h5 : u * (|G| + 2 * E) ≤ u * (L * H + 2 * E) := mul_le_mul_of_nonneg_left (by linarith) u0
    have h6 : u * (2 * E) ≤ 1 / 1000 * (2 * E) := mul_le_mul_of_nonneg_right hu (by linarith)
    have h7 : u * H ≤ u * (L * H) := mul_le_mul_of_nonneg_left (by nlinarith) u0
    linarith
  have hq : |G' / W - G / H| ≤ (10 / 9) * ((2002 / 1000 * E + 2 * (u * (L * H))) + L * (2 * δ + 21 / 10 * (u * H))) / H := by
    have e : G' / W - G / H = (G' - G) / W + (G / H) * ((H - W) / W) := by
      field_simp
      ring
    have e2 : (10 / 9) * ((2002 / 1000 * E + 2 * (u * (L * H))) + L * (2 * δ + 21 / 10 * (u * H))) / H =
        (2002 / 1000 * E + 2 * (u * (L * H))) / (9 / 10 * H) + L * ((2 * δ + 21 / 10 * (u * H)) / (9 / 10 * H)) := by
      field_simp
    rw [e, e2]
    refine (abs_add_le _ _).trans (add_le_add ?_ ?_)
    · rw [abs_div, abs_of_pos hWpos]
      exact div_le_div₀ ((abs_nonneg _).trans hGb) hGb (by positivity) hW9
    · rw [abs_mul, abs_div, abs_div, abs_of_pos hWpos, abs_of_pos hH, abs_sub_comm H W]
      refine mul_le_mul ?_ (div_le_div₀ ((abs_nonneg _).trans hWb) hWb (by positivity) hW9) (by positivity) (by linarith)
      rw [div_le_iff₀ hH]
      exact hL
  have hb := h.near hq
  have hGH : |G / H| ≤ L := by
    rw [abs_div, abs_of_pos hH, div_le_iff₀ hH]
    exact hL
  have e3 : (10 / 9) * ((2002 / 1000 * E + 2 * (u * (L * H))) + L * (2 * δ + 21 / 10 * (u * H))) / H =
      2002 / 900 * (E / H) + 20 / 9 * (L * (δ / H)) + 41 / 9 * (u * L) := by
    field_simp
    ring
  have e4 : (9 / 4 * E + 9 / 4 * L * δ) / H + 10 * u * L = 9 / 4 * (E / H) + 9 / 4 * (L * (δ / H)) + 10 * (u * L) := by ring
  rw [e3] at hb
  rw [e4]
  have x1 : 0 ≤ E / H := by positivity
  have x2 : 0 ≤ L * (δ / H) := mul_nonneg (by linarith) (div_nonneg (by linarith) hH.le)
  have x3 : 0 ≤ u * L := by positivity
  obtain ⟨S, hS⟩ : ∃ S, S = 2002 / 900 * (E / H) + 20 / 9 * (L * (δ / H)) + 41 / 9 * (u * L) := ⟨_, rfl⟩
  rw [← hS] at hb
  have hS0 : 0 ≤ S := by rw [hS]; positivity
  have h8 : u * (|G / H| + S) ≤ u * L + 1 / 1000 * S := by
    rw [mul_add]
    exact add_le_add (mul_le_mul_of_nonneg_left hGH u0) (mul_le_mul_of_nonneg_right hu hS0)
  have h9 : u ≤ u * L := le_mul_of_one_le_right u0 hL1
  linarith

end VGT
