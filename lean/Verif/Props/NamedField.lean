import Verif.Props.ObjectField

/-!
C82: the field of free space and named objects (`ExtractFreeAndNamedObjectsSignedDistanceField`).
-/
set_option autoImplicit false

namespace VGT
open VGT.EDT VGT.Spec

theorem not_mem_cellsOf {d : Dims} {border : Bool} {P : Idx → Prop} {i : Idx} (hi : d.In i) (hP : ¬ P i) :
    toZ i ∉ cellsOf d border P := by
  rintro (⟨j, -, hj, e⟩ | ⟨-, -, -, -, h⟩)
  · exact hP (toZ_inj (p := i) (q := j) e ▸ hj)
  · apply h
    obtain ⟨h1, h2, h3⟩ := hi
    simp only [toZ]
    omega

theorem cellsOf_near {d : Dims} {border : Bool} {P : Idx → Prop} {i : Idx} (hi : d.In i) {N : ℝ}
    (hN : ∀ a, (axisCells d a : ℝ) ≤ N) {n : ℕ} (hn : sqDistZ (cellsOf d border P) (toZ i) = n) : Real.sqrt n ≤ 2 * N := by
  classical
  have e : targets d border (fun i => decide (P i)) true = cellsOf d border P := by
    ext z
    simp only [targets, cellsOf, Set.mem_union, Set.mem_ofPred_eq, VGT.toZ, decide_eq_true_eq]
  rw [← e] at hn
  exact targets_near hi hN hn

section
variable {C : Type} {occ : C → Fl} {obj : C → Nat} {ro : Rounding} {m : CellMap C} {p : GenParams}

/-- A field of finite values that `ExtractFreeAndNamedObjectsSignedDistanceField` returned. -/
structure FieldOfFreeAndNamed (occ : C → Fl) (obj : C → Nat) (ro : Rounding) (m : CellMap C) (p : GenParams) (g : SDFGrid ℝ) : Prop where
  pose : Orthogonal g.pose.R
  ok : GenOK ro m.info
  dims : m.info.dims = g.dims
  edge : m.info.sx = g.s
  run : ∃ out, ExtractFreeAndNamed occ obj ro m p (some out) ∧ ∀ i, g.dims.In i → out i = .fin (g.data i)

/-- The obstacle cells, of objects or not. -/
def Spec.IsObstacle (occ : C → Fl) (m : CellMap C) (p : GenParams) (i : Idx) : Prop := Obstacle p.unknownIsFilled (occ (m.data i))

/-- The obstacle cells of objects. -/
def Spec.IsNamed (occ : C → Fl) (obj : C → Nat) (m : CellMap C) (p : GenParams) (i : Idx) : Prop :=
  0 < obj (m.data i) ∧ Obstacle p.unknownIsFilled (occ (m.data i))

variable {g : SDFGrid ℝ}

theorem named_cases (h : FieldOfFreeAndNamed occ obj ro m p g) {i : Idx} (hi : g.dims.In i) :
    (¬ IsObstacle occ m p i ∧ ∃ n : ℕ, 1 ≤ n ∧ sqDistZ (cellsOf g.dims p.addBorder (IsObstacle occ m p)) (toZ i) = n ∧
      g.data i = ro.cast (ro.rr (ro.rr (Real.sqrt n) * g.s))) ∨
    (IsNamed occ obj m p i ∧ ∃ n : ℕ, 1 ≤ n ∧
      sqDistZ (cellsOf g.dims p.addBorder fun j => ¬ IsNamed occ obj m p j) (toZ i) = n ∧
      g.data i = -ro.cast (ro.rr (ro.rr (Real.sqrt n) * g.s))) ∨
    (IsObstacle occ m p i ∧ ¬ IsNamed occ obj m p i ∧ g.data i = 0) := by
  obtain ⟨out, hrun, hout⟩ := h.run
  obtain ⟨_, e, hval⟩ := C09_free_and_named h.ok hrun
  cases e
  have hv := hval i (h.dims.symm ▸ hi)
  rw [hout i hi, h.edge, h.dims] at hv
  by_cases ho : IsObstacle occ m p i
  · by_cases hn : 0 < obj (m.data i)
    · refine .inr (.inl ⟨⟨hn, ho⟩, ?_⟩)
      have hv := hv.2.1 ho hn
      have hpos : 1 ≤ sqDistZ (cellsOf g.dims p.addBorder fun j => ¬ IsNamed occ obj m p j) (toZ i) :=
        sqDistZ_pos (not_mem_cellsOf hi (not_not.2 ⟨hn, ho⟩))
      change _ = (scaled _ _ _ (sqDistZ (cellsOf g.dims p.addBorder fun j => ¬ IsNamed occ obj m p j) (toZ i))).neg at hv
      cases hD : sqDistZ (cellsOf g.dims p.addBorder fun j => ¬ IsNamed occ obj m p j) (toZ i) using ENat.recTopCoe with
      | top => rw [hD, scaled_top] at hv; cases hv
      | coe n =>
        rw [hD, scaled_coe] at hv
        rw [hD] at hpos
        exact ⟨n, by exact_mod_cast hpos, rfl, Rl.fin.inj hv⟩
    · refine .inr (.inr ⟨ho, fun h => hn h.1, ?_⟩)
      exact Rl.fin.inj (hv.2.2 ho (by omega))
  · refine .inl ⟨ho, ?_⟩
    have hv := hv.1 ho
    have hpos : 1 ≤ sqDistZ (cellsOf g.dims p.addBorder (IsObstacle occ m p)) (toZ i) := sqDistZ_pos (not_mem_cellsOf hi ho)
    change _ = scaled _ _ _ (sqDistZ (cellsOf g.dims p.addBorder (IsObstacle occ m p)) (toZ i)) at hv
    cases hD : sqDistZ (cellsOf g.dims p.addBorder (IsObstacle occ m p)) (toZ i) using ENat.recTopCoe with
    | top => rw [hD, scaled_top] at hv; cases hv
    | coe n =>
      rw [hD, scaled_coe] at hv
      rw [hD] at hpos
      exact ⟨n, by exact_mod_cast hpos, rfl, Rl.fin.inj hv⟩

theorem root_one_le {n : ℕ} (h : 1 ≤ n) : 1 ≤ Real.sqrt n := by
  rw [Real.one_le_sqrt]; exact_mod_cast h

/-- With exact square roots and products, what is interpolated. -/
theorem named_boundary (h : FieldOfFreeAndNamed occ obj ro m p g) (hr : ro.rr = id) (hc : ro.cast = id) {i : Idx} (hi : g.dims.In i) :
    (¬ IsObstacle occ m p i ∧ ∃ n : ℕ, 1 ≤ n ∧ sqDistZ (cellsOf g.dims p.addBorder (IsObstacle occ m p)) (toZ i) = n ∧
      boundaryDist g.s (g.data i) = (Real.sqrt n - 1 / 2) * g.s) ∨
    (IsNamed occ obj m p i ∧ ∃ n : ℕ, 1 ≤ n ∧
      sqDistZ (cellsOf g.dims p.addBorder fun j => ¬ IsNamed occ obj m p j) (toZ i) = n ∧
      boundaryDist g.s (g.data i) = -((Real.sqrt n - 1 / 2) * g.s)) ∨
    (IsObstacle occ m p i ∧ ¬ IsNamed occ obj m p i ∧ boundaryDist g.s (g.data i) = -(g.s / 2)) := by
  have hs : 0 < g.s := h.edge ▸ h.ok.res
  rcases named_cases h hi with ⟨ho, n, hn, hD, e⟩ | ⟨ho, n, hn, hD, e⟩ | ⟨ho, hn, e⟩
  · refine .inl ⟨ho, n, hn, hD, ?_⟩
    have h1 := root_one_le hn
    rw [e, hr, hc]
    unfold boundaryDist
    simp only [id]
    rw [if_pos (by positivity)]
    ring
  · refine .inr (.inl ⟨ho, n, hn, hD, ?_⟩)
    have h1 := root_one_le hn
    have h2 : 0 < Real.sqrt n * g.s := by positivity
    rw [e, hr, hc]
    unfold boundaryDist
    simp only [id]
    rw [if_neg (by linarith)]
    ring
  · refine .inr (.inr ⟨ho, hn, ?_⟩)
    rw [e]
    unfold boundaryDist
    rw [if_pos le_rfl]
    ring

theorem sqDistZ_cell_le {d : Dims} {border : Bool} {P : Idx → Prop} {i j : Idx} (hj : d.In j) (hP : P j) {n : ℕ}
    (hn : sqDistZ (cellsOf d border P) (toZ i) = n) : n ≤ sq3 i j := by
  rw [sq3_toZ]
  exact (sqDistZ_coe.1 hn).2 _ (.inl ⟨j, hj, hP, rfl⟩)

theorem sq3_symm (i j : Idx) : sq3 i j = sq3 j i := by rw [sq3_toZ, sq3_toZ, sqz_comm]

theorem root_le {n k : ℕ} (h : n ≤ k) : Real.sqrt n ≤ Real.sqrt k := Real.sqrt_le_sqrt (by exact_mod_cast h)

/-- The combined field satisfies what the bounds on clearance need. -/
theorem named_sound (h : FieldOfFreeAndNamed occ obj ro m p g) (hr : ro.rr = id) (hc : ro.cast = id) :
    Sound (fun i => occFilled p (occ (m.data i))) g := by
  have hs : 0 < g.s := h.edge ▸ h.ok.res
  have hocc : ∀ i, occFilled p (occ (m.data i)) = true ↔ IsObstacle occ m p i := fun i => occFilled_iff _ _
  have hocc' : ∀ i, occFilled p (occ (m.data i)) = false ↔ ¬ IsObstacle occ m p i := fun i => by
    rw [← hocc, Bool.not_eq_true]
  refine ⟨hs, h.pose, fun {i j} hi hj => ?_, fun {i j} hi hj h1 => ?_⟩
  · rw [hocc, hocc']
    have hroot : 0 ≤ Real.sqrt (sq3 i j) * g.s := by positivity
    rcases named_boundary h hr hc hi with ⟨ho, n, hn, hD, e⟩ | ⟨ho, n, hn, hD, e⟩ | ⟨ho, hno, e⟩
    · have h1 := root_one_le hn
      refine ⟨fun hjo => ?_, fun _ => ?_⟩
      · rw [e]
        nlinarith [root_le (sqDistZ_cell_le hj hjo hD)]
      · rw [e]
        nlinarith
    · have h1 := root_one_le hn
      refine ⟨fun _ => ?_, fun hjo => ?_⟩
      · rw [e]
        nlinarith
      · rw [e, _root_.neg_neg]
        nlinarith [root_le (sqDistZ_cell_le (P := fun j => ¬ IsNamed occ obj m p j) hj (fun hh => hjo hh.2) hD)]
    · refine ⟨fun _ => by rw [e]; linarith, fun hjo => ?_⟩
      have hne : toZ i ∉ ({toZ j} : Set ZIdx) := by
        intro he
        exact hjo ((toZ_inj (p := i) (q := j) he) ▸ ho)
      have : 1 ≤ sq3 i j := by
        have h2 := sqDistZ_pos hne
        rw [sq3_toZ]
        have h3 : sqDistZ {toZ j} (toZ i) ≤ ((sqz (toZ i) (toZ j) : ℕ) : ℕ∞) := sqDistZ_le rfl
        exact_mod_cast h2.trans h3
      have h1 := root_one_le this
      rw [e, _root_.neg_neg]
      nlinarith
  · have lip : ∀ {A : Set ZIdx} {n k : ℕ}, sqDistZ A (toZ i) = n → sqDistZ A (toZ j) = k →
        |Real.sqrt n - Real.sqrt k| ≤ 1 := by
      intro A n k hn hk
      have := sqDistZ_lip hn hk
      rw [← sq3_toZ, h1] at this
      simpa using this
    have one : ∀ {P : Idx → Prop} {a b : Idx} {n : ℕ}, 1 ≤ n → g.dims.In b → P b → sq3 a b = 1 →
        sqDistZ (cellsOf g.dims p.addBorder P) (toZ a) = n → Real.sqrt n = 1 := by
      intro P a b n hn hb hP hab hD
      have := sqDistZ_cell_le hb hP hD
      rw [show n = 1 by omega]
      simp
    have h1' : sq3 j i = 1 := by rw [sq3_symm]; exact h1
    rcases named_boundary h hr hc hi with ⟨oi, n, hn, hD, e⟩ | ⟨oi, n, hn, hD, e⟩ | ⟨oi, ni, e⟩ <;>
    rcases named_boundary h hr hc hj with ⟨oj, k, hk, hE, e'⟩ | ⟨oj, k, hk, hE, e'⟩ | ⟨oj, nj, e'⟩ <;> rw [e, e', abs_le]
    · have := abs_le.1 (lip hD hE)
      constructor <;> nlinarith
    · rw [one hn hj oj.2 h1 hD, one (P := fun j => ¬ IsNamed occ obj m p j) hk hi (fun hh => oi hh.2) h1' hE]
      constructor <;> linarith
    · rw [one hn hj oj h1 hD]
      constructor <;> linarith
    · rw [one (P := fun j => ¬ IsNamed occ obj m p j) hn hj (fun hh => oj hh.2) h1 hD, one hk hi oi.2 h1' hE]
      constructor <;> linarith
    · have := abs_le.1 (lip hD hE)
      constructor <;> nlinarith
    · rw [one (P := fun j => ¬ IsNamed occ obj m p j) hn hj nj h1 hD]
      constructor <;> linarith
    · rw [one hk hi oi h1' hE]
      constructor <;> linarith
    · rw [one (P := fun j => ¬ IsNamed occ obj m p j) hk hi ni h1' hE]
      constructor <;> linarith
    · constructor <;> linarith

/-- C82. Clearance from all obstacles, named or not, and depth below free space in the field of free space and named objects; exact
arithmetic. -/
theorem C82_named_clear_ball (h : FieldOfFreeAndNamed occ obj ro m p g) (hr : ro.rr = id) (hc : ro.cast = id) {q q' : Vec ℝ}
    (hfr : InFrame g.pose.R g.pose.t q q') {e : ℝ} (he : g.estimate (point4 q') = some (some e))
    {o : Fin 3 → ℤ} (ho : CellInGrid (axisCells g.dims) o) {x y : Vec ℝ} (hxy : InFrame g.pose.R g.pose.t x y)
    (hx : InClosedCell g.s o x) :
    (IsObstacle occ m p (cellIdx o) → e - (Real.sqrt 3 + 3) * g.s ≤ dist3 q' y) ∧
    (¬ IsObstacle occ m p (cellIdx o) → -e - (Real.sqrt 3 + 3) * g.s ≤ dist3 q' y) ∧
    (BetweenCentres (axisCells g.dims) g.s q →
      (IsObstacle occ m p (cellIdx o) → e - (Real.sqrt 3 - 1 / 2) * g.s ≤ dist3 q' y) ∧
      (¬ IsObstacle occ m p (cellIdx o) → -e - (Real.sqrt 3 - 1 / 2) * g.s ≤ dist3 q' y)) := by
  have hsd := named_sound h hr hc
  have hocc : occFilled p (occ (m.data (cellIdx o))) = true ↔ IsObstacle occ m p (cellIdx o) := occFilled_iff _ _
  have h1 := sound_clear_ball_everywhere hsd hfr he ho hxy hx
  rw [← hocc, Bool.not_eq_true]
  exact ⟨h1.1, h1.2, fun hin => sound_clear_ball hsd hfr hin he ho hxy hx⟩

/-- The combined field of the same map in exact arithmetic: what is interpolated differs by little. -/
theorem named_twin (h : FieldOfFreeAndNamed occ obj ro m p g) (hr : ro.rr = roundDouble) {k : ℕ} {emin : ℤ} (hc : ro.cast = rne k emin)
    {v : ℝ} (hv : (2 : ℝ) ^ (-(k : ℤ)) = v) (hv2 : v ≤ 2 ^ (-24 : ℤ)) (hemin : emin + k ≤ -100) (hs : (2 : ℝ) ^ (-100 : ℤ) ≤ g.s)
    {N : ℝ} (h1N : 1 ≤ N) (hN : ∀ a, (axisCells g.dims a : ℝ) ≤ N) :
    ∃ g₀ : SDFGrid ℝ, FieldOfFreeAndNamed occ obj exactRounding m p g₀ ∧ g₀.dims = g.dims ∧ g₀.s = g.s ∧ g₀.pose = g.pose ∧
      (∀ i, g.dims.In i → |boundaryDist g.s (g.data i) - boundaryDist g.s (g₀.data i)| ≤ (v + 2 ^ (-51 : ℤ)) * (2 * N * g.s)) ∧
      ∀ i, g.dims.In i → |boundaryDist g.s (g₀.data i)| ≤ 2 * N * g.s := by
  have hspos : 0 < g.s := h.edge ▸ h.ok.res
  have hvpos : 0 < v := by rw [← hv]; positivity
  have hok0 : GenOK exactRounding m.info :=
    ⟨exact_rq, exact_rr, exact_rr, h.ok.uniform, h.ok.res, rfl, h.ok.res, h.ok.fits⟩
  have hF := fun i (hi : m.info.dims.In i) => isFilledPlain_toZ occ m p hi
  have hM := fun i (hi : m.info.dims.In i) => isFilledNamed_toZ occ obj m p hi
  obtain ⟨r1, hr1⟩ := gridRuns_exists hok0 (isFilledPlain occ m p) p.addBorder p.oob
  obtain ⟨r2, hr2⟩ := gridRuns_exists hok0 (isFilledNamed occ obj m p) p.addBorder p.oob
  obtain ⟨free, rfl, -⟩ := gridRuns_eq hok0 hF hr1
  obtain ⟨named, rfl, -⟩ := gridRuns_eq hok0 hM hr2
  have hrun0 : ExtractFreeAndNamed occ obj exactRounding m p
      (some fun i => if m.info.dims.In i then borderCombine (free i) (named i) else free i) :=
    .inr ⟨free, hr1, .inr ⟨named, hr2, rfl⟩⟩
  generalize (fun i => if m.info.dims.In i then borderCombine (free i) (named i) else free i) = out0 at hrun0
  obtain ⟨_, e, hval0⟩ := C09_free_and_named hok0 hrun0
  cases e
  have hfin : ∀ i, g.dims.In i → out0 i = .fin ((fun i => match out0 i with | .fin r => r | _ => 0) i) := by
    intro i hi
    have hv0 := hval0 i (h.dims.symm ▸ hi)
    rw [h.dims, h.edge] at hv0
    have : ∃ r, out0 i = .fin r := by
      rcases named_cases h hi with ⟨ho, n, hn, hD, -⟩ | ⟨ho, n, hn, hD, -⟩ | ⟨ho, hno, -⟩
      · have hv0 := hv0.1 ho
        change _ = scaled _ _ _ (sqDistZ (cellsOf g.dims p.addBorder (IsObstacle occ m p)) (toZ i)) at hv0
        rw [hD, scaled_coe] at hv0
        exact ⟨_, hv0⟩
      · have hv0 := hv0.2.1 ho.2 ho.1
        change _ = (scaled _ _ _ (sqDistZ (cellsOf g.dims p.addBorder fun j => ¬ IsNamed occ obj m p j) (toZ i))).neg at hv0
        rw [hD, scaled_coe] at hv0
        exact ⟨_, hv0⟩
      · have h0 : obj (m.data i) = 0 := by
          by_contra hne
          exact hno ⟨by omega, ho⟩
        exact ⟨_, hv0.2.2 ho h0⟩
    obtain ⟨r, e⟩ := this
    dsimp only
    rw [e]
  have hg0 : FieldOfFreeAndNamed occ obj exactRounding m p ⟨g.dims, g.s, g.pose, fun i => match out0 i with | .fin r => r | _ => 0⟩ :=
    ⟨h.pose, hok0, h.dims, h.edge, out0, hrun0, hfin⟩
  generalize (fun i => match out0 i with | .fin r => r | _ => (0 : ℝ)) = data0 at hg0
  have err : ∀ {n : ℕ}, 1 ≤ n → Real.sqrt n ≤ 2 * N →
      |rne k emin (roundDouble (roundDouble (Real.sqrt n) * g.s)) - Real.sqrt n * g.s| ≤ (v + 2 ^ (-51 : ℤ)) * |Real.sqrt n * g.s| ∧
      (v + 2 ^ (-51 : ℤ)) * |Real.sqrt n * g.s| ≤ (v + 2 ^ (-51 : ℤ)) * (2 * N * g.s) ∧ Real.sqrt n * g.s ≠ 0 := by
    intro n hn hle
    have h1 := root_one_le hn
    have h0 : 0 < Real.sqrt n * g.s := by positivity
    rw [abs_of_pos h0]
    refine ⟨scaled_error hv hv2 hemin hs hn, ?_, h0.ne'⟩
    have := mul_le_mul_of_nonneg_right hle hspos.le
    gcongr
  have hε : v + 2 ^ (-51 : ℤ) < 1 := by norm_num at hv2 ⊢; linarith
  refine ⟨_, hg0, rfl, rfl, rfl, fun i hi => ?_, fun i hi => ?_⟩
  · have c := named_cases h hi
    have c0 := named_cases hg0 hi
    dsimp only at c0 ⊢
    rw [hr, hc] at c
    rcases c with ⟨ho, n, hn, hD, e⟩ | ⟨ho, n, hn, hD, e⟩ | ⟨ho, hno, e⟩ <;>
    rcases c0 with ⟨ho', n', -, hD', e'⟩ | ⟨ho', n', -, hD', e'⟩ | ⟨ho', hno', e'⟩
    · have en : n' = n := by rw [hD] at hD'; exact_mod_cast hD'.symm
      subst en
      obtain ⟨h1, h2, h3⟩ := err hn (cellsOf_near hi hN hD)
      change data0 i = Real.sqrt n' * g.s at e'
      rw [e, e']
      exact (boundaryDist_near h3 hε h1).trans h2
    · exact absurd ho'.2 ho
    · exact absurd ho' ho
    · exact absurd ho.2 ho'
    · have en : n' = n := by rw [hD] at hD'; exact_mod_cast hD'.symm
      subst en
      obtain ⟨h1, h2, h3⟩ := err hn (cellsOf_near hi hN hD)
      change data0 i = -(Real.sqrt n' * g.s) at e'
      rw [e, e']
      refine le_trans (boundaryDist_near (neg_ne_zero.2 h3) hε ?_) (by rw [abs_neg]; exact h2)
      rw [abs_neg, neg_sub_neg, abs_sub_comm]
      exact h1
    · exact absurd ho hno'
    · exact absurd ho ho'
    · exact absurd ho' hno
    · rw [e, e', sub_self, abs_zero]
      positivity
  · have c0 := named_boundary hg0 rfl rfl hi
    dsimp only at c0 ⊢
    rcases c0 with ⟨ho, n, hn, hD, e⟩ | ⟨ho, n, hn, hD, e⟩ | ⟨ho, hno, e⟩
    · have h1 := root_one_le hn
      have h2 := cellsOf_near hi hN hD
      rw [e, abs_of_nonneg (by nlinarith)]
      nlinarith
    · have h1 := root_one_le hn
      have h2 := cellsOf_near hi hN hD
      rw [e, abs_neg, abs_of_nonneg (by nlinarith)]
      nlinarith
    · rw [e, abs_neg, abs_of_pos (by linarith)]
      nlinarith

variable {N : ℝ} {norm : (Fin 3 → ℝ) → ℝ}
  {interp : (Fin 3 → ℝ) → (Fin 3 → ℝ) → (Bool → Bool → Bool → ℝ) → (Fin 3 → ℝ) → ℝ}
  {toGrid : Vec4 ℝ → Fin 3 → ℝ} {toWorld rotate : (Fin 3 → ℝ) → Fin 3 → ℝ}

theorem named_machine (hg : FieldOfFreeAndNamed occ obj ro m p g) (hr : ro.rr = roundDouble) {k : ℕ} {emin : ℤ}
    (hc : ro.cast = rne k emin) {v c : ℝ} (hv : (2 : ℝ) ^ (-(k : ℤ)) = v) (hv2 : v ≤ 2 ^ (-24 : ℤ)) (hemin : emin + k ≤ -100)
    (hvc : 54 * (v + 2 ^ (-51 : ℤ)) ≤ c)
    (hs : (2 : ℝ) ^ (-100 : ℤ) ≤ g.s) (hs' : g.s ≤ 2 ^ (100 : ℤ))
    (h1 : 1 ≤ N) (hN43 : N ≤ 2 ^ 43) (hN : ∀ a, (axisCells g.dims a : ℝ) ≤ N) (hint : DoubleInterpolation interp)
    {loc : Vec4 ℝ} {e' : ℝ} (he' : flEstimate (roundedQuery roundDouble norm interp)
      (g.computed (roundDouble (1 / g.s)) toGrid toWorld rotate) loc = .value e')
    {q q' : Fin 3 → ℝ} (hfr : InFrame g.pose.R g.pose.t (toGrid loc) q)
    {o : Fin 3 → ℤ} (ho : CellInGrid (axisCells g.dims) o) {x y : Vec ℝ} (hxy : InFrame g.pose.R g.pose.t x y)
    (hx : InClosedCell g.s o x) :
    (IsObstacle occ m p (cellIdx o) → e' - (Real.sqrt 3 + 3 + N * c + N ^ 2 / 2 ^ 37) * g.s - dist3 q q' ≤ dist3 q' y) ∧
    (¬ IsObstacle occ m p (cellIdx o) → -e' - (Real.sqrt 3 + 3 + N * c + N ^ 2 / 2 ^ 37) * g.s - dist3 q q' ≤ dist3 q' y) := by
  have hsb : (2 : ℝ) ^ (-1022 : ℤ) ≤ g.s := le_trans (zpow_le_zpow_right₀ (by norm_num) (by norm_num)) hs
  have hsb' : g.s ≤ (2 : ℝ) ^ (1022 : ℤ) := hs'.trans (zpow_le_zpow_right₀ (by norm_num) (by norm_num))
  have hp : Precise (roundDouble : ℝ → ℝ) (2 ^ (-53 : ℤ)) (2 ^ (-1075 : ℤ)) g.s N := precise_double hsb h1 hN43
  obtain ⟨g₀, hg0, hd, hs0, hP, hbd, hb0⟩ := named_twin hg hr hc hv hv2 hemin hs h1 hN
  have hv2' : v + 2 ^ (-51 : ℤ) ≤ 1 / 4 := by norm_num at hv2 ⊢; linarith
  obtain ⟨q₁, p₁, e, -, hq, hp₁, he, hb⟩ := machine_estimate_near hg0.pose hd hs0 hv2' hbd hb0 hp
    (hint.accurate hs hs' h1 hN43) (by have := hp.k0; linarith) hN (double_inverse hsb hsb') he'
  have hball := C82_named_clear_ball hg0 rfl rfl hp₁ he (o := o) (x := x) (y := y) (by rw [hd]; exact ho) (by rw [hP]; exact hxy)
    (by rw [hs0]; exact hx)
  rw [hs0] at hball
  have hm := machine_margin (v := v) (c := c) hp.s0.le h1 hvc
  have hd1 : dist3 p₁ q ≤ 2 * (16 * (2 ^ (-53 : ℤ) * N) * g.s) := by
    rw [dist3_frame hg0.pose hp₁ (by rw [hP]; exact hfr)]
    exact dist3_le_of_coords hq
  have t1 := dist3_triangle p₁ q y
  have t2 := dist3_triangle q q' y
  have hb := abs_le.1 hb
  have ha := hball.1
  have hn := hball.2.1
  clear hball hp hbd hb0 hq hs hs' hsb hsb' hv hv2 hv2' hvc hN hN43 he he' hint
  generalize (2 : ℝ) ^ (-53 : ℤ) * N = w at hm hd1 hb
  generalize (3 * (3780 * w + 101 / 100 * (8000 * w)) + 54 * (v + 2 ^ (-51 : ℤ))) * (N * g.s) = z at hm hb
  obtain ⟨hb1, hb2⟩ := hb
  constructor <;> intro hfo
  · have := ha hfo; linarith
  · have := hn hfo; linarith

/-- C82. The field of free space and named objects, stored in `float`: the computed distance is clearance from every obstacle, named or not,
the computed depth is distance from free space. -/
theorem C82_named_float (hg : FieldOfFreeAndNamed occ obj floatSDF m p g) (hs : (2 : ℝ) ^ (-100 : ℤ) ≤ g.s) (hs' : g.s ≤ 2 ^ (100 : ℤ))
    (h1 : 1 ≤ N) (hN43 : N ≤ 2 ^ 43) (hN : ∀ a, (axisCells g.dims a : ℝ) ≤ N) (hint : DoubleInterpolation interp)
    {loc : Vec4 ℝ} {e' : ℝ} (he' : flEstimate (roundedQuery roundDouble norm interp)
      (g.computed (roundDouble (1 / g.s)) toGrid toWorld rotate) loc = .value e')
    {q q' : Fin 3 → ℝ} (hfr : InFrame g.pose.R g.pose.t (toGrid loc) q)
    {o : Fin 3 → ℤ} (ho : CellInGrid (axisCells g.dims) o) {x y : Vec ℝ} (hxy : InFrame g.pose.R g.pose.t x y)
    (hx : InClosedCell g.s o x) :
    (IsObstacle occ m p (cellIdx o) → e' - (Real.sqrt 3 + 3 + N / 2 ^ 18 + N ^ 2 / 2 ^ 37) * g.s - dist3 q q' ≤ dist3 q' y) ∧
    (¬ IsObstacle occ m p (cellIdx o) → -e' - (Real.sqrt 3 + 3 + N / 2 ^ 18 + N ^ 2 / 2 ^ 37) * g.s - dist3 q q' ≤ dist3 q' y) := by
  have := named_machine (q' := q') hg rfl (k := 24) (emin := -149) rfl (c := 1 / 2 ^ 18) rfl (by norm_num) (by norm_num) (by norm_num)
    hs hs' h1 hN43 hN hint he' hfr ho hxy hx
  rw [show N * (1 / 2 ^ 18) = N / 2 ^ 18 by ring] at this
  exact this

/-- C82. The same, stored in `double`. -/
theorem C82_named_double (hg : FieldOfFreeAndNamed occ obj doubleSDF m p g) (hs : (2 : ℝ) ^ (-100 : ℤ) ≤ g.s) (hs' : g.s ≤ 2 ^ (100 : ℤ))
    (h1 : 1 ≤ N) (hN43 : N ≤ 2 ^ 43) (hN : ∀ a, (axisCells g.dims a : ℝ) ≤ N) (hint : DoubleInterpolation interp)
    {loc : Vec4 ℝ} {e' : ℝ} (he' : flEstimate (roundedQuery roundDouble norm interp)
      (g.computed (roundDouble (1 / g.s)) toGrid toWorld rotate) loc = .value e')
    {q q' : Fin 3 → ℝ} (hfr : InFrame g.pose.R g.pose.t (toGrid loc) q)
    {o : Fin 3 → ℤ} (ho : CellInGrid (axisCells g.dims) o) {x y : Vec ℝ} (hxy : InFrame g.pose.R g.pose.t x y)
    (hx : InClosedCell g.s o x) :
    (IsObstacle occ m p (cellIdx o) → e' - (Real.sqrt 3 + 3 + N / 2 ^ 44 + N ^ 2 / 2 ^ 37) * g.s - dist3 q q' ≤ dist3 q' y) ∧
    (¬ IsObstacle occ m p (cellIdx o) → -e' - (Real.sqrt 3 + 3 + N / 2 ^ 44 + N ^ 2 / 2 ^ 37) * g.s - dist3 q q' ≤ dist3 q' y) := by
  have := named_machine (q' := q') hg rfl (k := 53) (emin := -1074) rfl (c := 1 / 2 ^ 44) rfl (by norm_num) (by norm_num) (by norm_num)
    hs hs' h1 hN43 hN hint he' hfr ho hxy hx
  rw [show N * (1 / 2 ^ 44) = N / 2 ^ 44 by ring] at this
  exact this

/-! ### When every obstacle has an id -/

theorem extractFreeAndNamed_exists (hok : GenOK ro m.info) : ∃ out, ExtractFreeAndNamed occ obj ro m p (some out) := by
  obtain ⟨r1, hr1⟩ := gridRuns_exists hok (isFilledPlain occ m p) p.addBorder p.oob
  obtain ⟨r2, hr2⟩ := gridRuns_exists hok (isFilledNamed occ obj m p) p.addBorder p.oob
  obtain ⟨free, rfl, -⟩ := gridRuns_eq hok (fun i hi => isFilledPlain_toZ occ m p hi) hr1
  obtain ⟨named, rfl, -⟩ := gridRuns_eq hok (fun i hi => isFilledNamed_toZ occ obj m p hi) hr2
  exact ⟨_, .inr ⟨free, hr1, .inr ⟨named, hr2, rfl⟩⟩⟩

/-- C82. If every obstacle has an id, the field of free space and named objects is the field of all obstacles. Every rounding. -/
theorem C82_all_named (hok : GenOK ro m.info) {out whole : Idx → Rl} (hrun : ExtractFreeAndNamed occ obj ro m p (some out))
    (hw : ExtractTagged occ obj ro m p [] (some whole))
    (hnamed : ∀ j, m.info.dims.In j → Obstacle p.unknownIsFilled (occ (m.data j)) → obj (m.data j) ≠ 0)
    {i : Idx} (hi : m.info.dims.In i) : out i = whole i := by
  obtain ⟨_, e, h⟩ := C09_free_and_named hok hrun
  cases e
  obtain ⟨_, e, -, hW⟩ := C08_extract_tagged hok hw
  cases e
  have h := h i hi
  have hW := hW i hi
  have e1 : cellsOf m.info.dims p.addBorder (fun j => (([] : List Nat) = [] ∨ obj (m.data j) ∈ ([] : List Nat)) ∧
      Obstacle p.unknownIsFilled (occ (m.data j))) =
      cellsOf m.info.dims p.addBorder fun j => Obstacle p.unknownIsFilled (occ (m.data j)) :=
    Set.Subset.antisymm (cellsOf_mono fun _ _ h => h.2) (cellsOf_mono fun _ _ h => ⟨.inl rfl, h⟩)
  have e2 : cellsOf m.info.dims p.addBorder (fun j => ¬ ((([] : List Nat) = [] ∨ obj (m.data j) ∈ ([] : List Nat)) ∧
      Obstacle p.unknownIsFilled (occ (m.data j)))) =
      cellsOf m.info.dims p.addBorder fun j => ¬ (0 < obj (m.data j) ∧ Obstacle p.unknownIsFilled (occ (m.data j))) :=
    Set.Subset.antisymm (cellsOf_mono fun _ _ h h' => h ⟨.inl rfl, h'.2⟩)
      (cellsOf_mono fun j hj h h' => h ⟨Nat.pos_of_ne_zero (hnamed j hj h'.2), h'.2⟩)
  by_cases ho : Obstacle p.unknownIsFilled (occ (m.data i))
  · rw [h.2.1 ho (Nat.pos_of_ne_zero (hnamed i hi ho)), hW.2 ⟨.inl rfl, ho⟩, e2]
    rfl
  · rw [h.1 ho, hW.1 (fun h => ho h.2), e1]
    rfl

/-! ### Concrete cases -/

/-- Every map with a free cell and an obstacle has a field of free space and named objects, at any pose. -/
theorem fieldOfFreeAndNamed_exists (hok : GenOK ro m.info) {P : Pose ℝ} (hP : Orthogonal P.R) {i j : Idx} (hi : m.info.dims.In i)
    (fi : ¬ IsObstacle occ m p i) (hj : m.info.dims.In j) (fj : IsObstacle occ m p j) :
    ∃ g : SDFGrid ℝ, FieldOfFreeAndNamed occ obj ro m p g ∧ g.dims = m.info.dims ∧ g.s = m.info.sx ∧ g.pose = P := by
  obtain ⟨out, hrun⟩ := extractFreeAndNamed_exists (occ := occ) (obj := obj) (p := p) hok
  obtain ⟨_, e, h⟩ := C09_free_and_named hok hrun
  cases e
  have near : ∀ {Q : Idx → Prop} {k : Idx}, m.info.dims.In k → Q k → ∀ z, ∃ n : ℕ, sqDistZ (cellsOf m.info.dims p.addBorder Q) z = n := by
    intro Q k hk hQ z
    have := ne_top_of_le_ne_top (ENat.natCast_ne_top _) (sqDistZ_le (q := z) (z := toZ k)
      (A := cellsOf m.info.dims p.addBorder Q) (.inl ⟨k, hk, hQ, rfl⟩))
    obtain ⟨n, hn⟩ := ENat.ne_top_iff_exists.1 this
    exact ⟨n, hn.symm⟩
  have hfin : ∀ k, m.info.dims.In k → ∃ r, out k = .fin r := by
    intro k hk
    by_cases ho : Obstacle p.unknownIsFilled (occ (m.data k))
    · by_cases hn : 0 < obj (m.data k)
      · obtain ⟨n, hn'⟩ := near (Q := fun j => ¬ (0 < obj (m.data j) ∧ Obstacle p.unknownIsFilled (occ (m.data j)))) hi
          (fun h => fi h.2) (toZ k)
        exact ⟨_, by rw [(h k hk).2.1 ho hn, hn', scaled_coe]; rfl⟩
      · exact ⟨0, (h k hk).2.2 ho (by omega)⟩
    · obtain ⟨n, hn'⟩ := near (Q := fun j => Obstacle p.unknownIsFilled (occ (m.data j))) hj fj (toZ k)
      exact ⟨_, by rw [(h k hk).1 ho, hn', scaled_coe]⟩
  refine ⟨⟨m.info.dims, m.info.sx, P, fun i => match out i with | .fin r => r | _ => 0⟩, ⟨hP, hok, rfl, rfl, out, hrun, fun k hk => ?_⟩,
    rfl, rfl, rfl⟩
  obtain ⟨r, hr⟩ := hfin k hk
  simp only [hr]

end

/-- In the row with an obstacle without id at its end, both in `float` and in `double`: the estimate at `(40.5, 0.5, 0.5)` is defined
and the ball it describes is clear of both obstacles. -/
example : ∃ g : SDFGrid ℝ, FieldOfFreeAndNamed Prod.fst Prod.snd floatSDF exUnnamed ⟨.fin 0, false, false⟩ g ∧ g.s = 1 ∧
    (∀ a, (axisCells g.dims a : ℝ) ≤ 64) ∧
    ∃ e', flEstimate (roundedQuery roundDouble (fun _ => 0) (flTrilinear (roundedArith roundDouble)))
      (g.computed (roundDouble (1 / g.s)) (fun l => l.v) id id) (point4 ![81 / 2, 1 / 2, 1 / 2]) = .value e' ∧
    ∀ y, InClosedCell 1 ![0, 0, 0] y ∨ InClosedCell 1 ![63, 0, 0] y → e' - 5 ≤ dist3 ![81 / 2, 1 / 2, 1 / 2] y := by
  obtain ⟨g, hg, hd, hs, hP⟩ := fieldOfFreeAndNamed_exists (m := exUnnamed) (obj := Prod.snd) (ro := floatSDF) exRow_ok
    (P := ⟨fun i j => if i = j then 1 else 0, fun _ => 0⟩)
    (by constructor <;> intro a b <;> fin_cases a <;> fin_cases b <;> simp) (occ := Prod.fst) (p := ⟨.fin 0, false, false⟩)
    (i := (1, 0, 0)) (by decide) (fun h => absurd ((exUnnamed_obstacle _).1 h) (by decide)) (j := (0, 0, 0)) (by decide)
    ((exUnnamed_obstacle _).2 (.inl rfl))
  change g.dims = ⟨64, 1, 1⟩ at hd
  change g.s = 1 at hs
  have hframe : ∀ x : Fin 3 → ℝ, InFrame g.pose.R g.pose.t x x := by
    rw [hP]; intro x a; fin_cases a <;> simp
  have hN : ∀ a, (axisCells g.dims a : ℝ) ≤ 64 := by
    rw [hd]; intro a; fin_cases a <;> simp [axisCells]
  have s1 : (2 : ℝ) ^ (-100 : ℤ) ≤ g.s := by rw [hs]; norm_num
  have s2 : g.s ≤ (2 : ℝ) ^ (100 : ℤ) := by rw [hs]; norm_num
  have hsb : (2 : ℝ) ^ (-1022 : ℤ) ≤ g.s := le_trans (zpow_le_zpow_right₀ (by norm_num) (by norm_num)) s1
  have hsb' : g.s ≤ (2 : ℝ) ^ (1022 : ℤ) := s2.trans (zpow_le_zpow_right₀ (by norm_num) (by norm_num))
  have hp : Precise (roundDouble : ℝ → ℝ) (2 ^ (-53 : ℤ)) (2 ^ (-1075 : ℤ)) g.s 64 := precise_double hsb (by norm_num) (by norm_num)
  obtain ⟨e', he'⟩ := (C67_estimate_defined hp (double_inverse hsb hsb') (norm := fun _ => 0)
    (interp := flTrilinear (roundedArith roundDouble)) (toGrid := fun l => l.v) (toWorld := id) (rotate := id)
    (loc := point4 ![81 / 2, 1 / 2, 1 / 2]) (by
      rw [hs]; intro a; fin_cases a <;> simp [point4] <;> norm_num [abs_le])).1 (by
      rw [hs, hd]; intro a; fin_cases a <;> simp [point4, axisCells] <;> norm_num)
  refine ⟨g, hg, hs, hN, e', he', ?_⟩
  have key : ∀ o : Fin 3 → ℤ, CellInGrid (axisCells g.dims) o → IsObstacle Prod.fst exUnnamed ⟨.fin 0, false, false⟩ (cellIdx o) →
      ∀ y, InClosedCell 1 o y → e' - 5 ≤ dist3 ![81 / 2, 1 / 2, 1 / 2] y := by
    intro o ho hob y hy
    have := (C82_named_float hg s1 s2 (N := 64) (by norm_num) (by norm_num) hN (.inl rfl) he'
      (hframe _) (q' := ![81 / 2, 1 / 2, 1 / 2]) ho (hframe y) (by rw [hs]; exact hy)).1 hob
    have h3 : Real.sqrt 3 ≤ 19 / 10 := by rw [Real.sqrt_le_left (by norm_num)]; norm_num
    have h0 : dist3 (point4 (![81 / 2, 1 / 2, 1 / 2] : Fin 3 → ℝ)).v ![81 / 2, 1 / 2, 1 / 2] = 0 := by
      unfold dist3 point4; simp
    rw [h0, hs] at this
    norm_num at this
    linarith
  rintro y (hy | hy)
  · exact key _ (by rw [hd]; intro a; fin_cases a <;> simp [axisCells]) ((exUnnamed_obstacle _).2 (.inl rfl)) y hy
  · exact key _ (by rw [hd]; intro a; fin_cases a <;> simp [axisCells]) ((exUnnamed_obstacle _).2 (.inr rfl)) y hy

/-- The same field in `double` and in exact arithmetic. -/
example : (∃ g : SDFGrid ℝ, FieldOfFreeAndNamed Prod.fst Prod.snd doubleSDF exUnnamed ⟨.fin 0, false, false⟩ g ∧ g.s = 1 ∧
    g.dims = ⟨64, 1, 1⟩) ∧
    ∃ g : SDFGrid ℝ, FieldOfFreeAndNamed Prod.fst Prod.snd exactRounding exUnnamed ⟨.fin 0, false, false⟩ g ∧ g.data (63, 0, 0) = 0 ∧
      g.data (62, 0, 0) = 1 ∧ g.data (0, 0, 0) = -1 := by
  have hP : Orthogonal (⟨fun i j => if i = j then 1 else 0, fun _ => 0⟩ : Pose ℝ).R := by
    constructor <;> intro a b <;> fin_cases a <;> fin_cases b <;> simp
  have hfree : ¬ IsObstacle Prod.fst exUnnamed ⟨.fin 0, false, false⟩ (1, 0, 0) :=
    fun h => absurd ((exUnnamed_obstacle _).1 h) (by decide)
  have hob : IsObstacle Prod.fst exUnnamed ⟨.fin 0, false, false⟩ (0, 0, 0) := (exUnnamed_obstacle _).2 (.inl rfl)
  constructor
  · obtain ⟨g, hg, hd, hs, -⟩ := fieldOfFreeAndNamed_exists (m := exUnnamed) (obj := Prod.snd) (ro := doubleSDF) exRow_ok_double hP
      (i := (1, 0, 0)) (by decide) hfree (j := (0, 0, 0)) (by decide) hob
    exact ⟨g, hg, hs, hd⟩
  · obtain ⟨g, hg, hd, hs, -⟩ := fieldOfFreeAndNamed_exists (m := exUnnamed) (obj := Prod.snd) (ro := exactRounding) exUnnamed_ok hP
      (i := (1, 0, 0)) (by decide) hfree (j := (0, 0, 0)) (by decide) hob
    change g.s = 1 at hs
    have hin : ∀ i, i.1 < 64 ∧ i.2.1 < 1 ∧ i.2.2 < 1 → g.dims.In i := fun i hi => by rw [hd]; exact hi
    have h63 : IsObstacle Prod.fst exUnnamed ⟨.fin 0, false, false⟩ (63, 0, 0) := (exUnnamed_obstacle _).2 (.inr rfl)
    refine ⟨g, hg, ?_, ?_, ?_⟩
    · rcases named_cases hg (hin (63, 0, 0) (by decide)) with ⟨h, -⟩ | ⟨h, -⟩ | ⟨-, -, h⟩
      · exact absurd h63 h
      · have := h.1; simp [exUnnamed] at this
      · exact h
    · rcases named_cases hg (hin (62, 0, 0) (by decide)) with ⟨-, n, h1, hn, e⟩ | ⟨h, -⟩ | ⟨h, -⟩
      · have hle := sqDistZ_le (q := toZ (62, 0, 0)) (z := toZ (63, 0, 0))
          (A := cellsOf g.dims false (IsObstacle Prod.fst exUnnamed ⟨.fin 0, false, false⟩))
          (.inl ⟨(63, 0, 0), hin _ (by decide), h63, rfl⟩)
        have hn' : n ≤ 1 := by
          rw [hn] at hle
          exact_mod_cast hle
        have : n = 1 := by omega
        subst this
        rw [e, hs]
        simp [exactRounding]
      · exact absurd ((exUnnamed_obstacle _).1 h.2) (by decide)
      · exact absurd ((exUnnamed_obstacle _).1 h) (by decide)
    · rcases named_cases hg (hin (0, 0, 0) (by decide)) with ⟨h, -⟩ | ⟨-, n, h1, hn, e⟩ | ⟨-, h, -⟩
      · exact absurd hob h
      · have hle := sqDistZ_le (q := toZ (0, 0, 0)) (z := toZ (1, 0, 0))
          (A := cellsOf g.dims false (fun j => ¬ IsNamed Prod.fst Prod.snd exUnnamed ⟨.fin 0, false, false⟩ j))
          (.inl ⟨(1, 0, 0), hin _ (by decide), fun h => hfree h.2, rfl⟩)
        have hn' : n ≤ 1 := by
          rw [hn] at hle
          exact_mod_cast hle
        have : n = 1 := by omega
        subst this
        rw [e, hs]
        simp [exactRounding]
      · exact absurd ⟨by simp [exUnnamed], hob⟩ h

/-- In the row where both obstacles have ids the two fields agree. -/
example : ∃ out whole, ExtractFreeAndNamed Prod.fst Prod.snd floatSDF exObjects ⟨.fin 0, false, false⟩ (some out) ∧
    ExtractTagged Prod.fst Prod.snd floatSDF exObjects ⟨.fin 0, false, false⟩ [] (some whole) ∧ out (40, 0, 0) = whole (40, 0, 0) := by
  obtain ⟨whole, hw⟩ := extractTagged_exists (occ := Prod.fst) (obj := Prod.snd) (m := exObjects) (p := ⟨.fin 0, false, false⟩) exRow_ok []
  obtain ⟨out, hrun⟩ := extractFreeAndNamed_exists (occ := Prod.fst) (obj := Prod.snd) (m := exObjects) (p := ⟨.fin 0, false, false⟩)
    (ro := floatSDF) exRow_ok
  refine ⟨out, whole, hrun, hw, C82_all_named exRow_ok hrun hw (fun j _ ho => ?_) (by decide)⟩
  have := (exObjects_obstacle j).1 ho
  unfold exObjects
  dsimp only
  split_ifs with h1 h2
  · simp
  · simp
  · simp [h1, h2] at this

end VGT
