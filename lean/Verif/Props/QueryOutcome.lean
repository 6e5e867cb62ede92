import Verif.Props.QueryFloat
import Mathlib.Logic.Relation

/-!
C65: which outcome fine gradients and projection have, in words of the locations that they look at.
-/
set_option autoImplicit false

namespace VGT
open VGT.EDT VGT.Spec

section
variable {F : Type} (A : QueryArith F) (g : FlSDF F)

/-- The index of the location's cell has no representation: the conversion is undefined. -/
def Spec.Lost (loc : Vec4 F) : Prop := ∃ a, A.toInt (A.mul (g.toGrid loc a) g.inv) = none

/-- The point moved by the window along axis `b`, down or up. -/
def Spec.beside (p : Fin 3 → F) (window : F) (b : Fin 3) (up : Bool) : Vec4 F :=
  ⟨fun c => if c = b then (if up then A.add (p b) (A.abs window) else A.sub (p b) (A.abs window)) else p c, A.one⟩

theorem lost_iff {loc : Vec4 F} : Lost A g loc ↔ flEstimate A g loc = .undefined := (C65_estimate A g loc).1.symm

theorem flAll_undefined : ∀ {l : List (Answer F)}, (∀ x ∈ l, x ≠ .throws) → (flAll l = .undefined ↔ .undefined ∈ l)
  | [], _ => by simp [flAll]
  | x :: l, h => by
    have ih := flAll_undefined (l := l) fun y hy => h y (List.mem_cons_of_mem _ hy)
    have hx := h x List.mem_cons_self
    cases x with
    | undefined => simp [flAll]
    | throws => exact absurd rfl hx
    | empty =>
      rw [List.mem_cons, ← ih]
      rw [flAll]
      cases flAll l <;> simp
    | value v =>
      rw [List.mem_cons, ← ih]
      rw [flAll]
      cases flAll l <;> simp

theorem flAll_length : ∀ {l : List (Answer F)} {r : List (Option F)}, flAll l = .value r → r.length = l.length
  | [], r, h => by simp only [flAll, Answer.value.injEq] at h; rw [← h]; rfl
  | x :: l, r, h => by
    have ih : ∀ r, flAll l = .value r → r.length = l.length := fun r => flAll_length (l := l)
    cases x with
    | undefined => cases h
    | throws => cases h
    | empty =>
      rw [flAll] at h
      cases hl : flAll l with
      | value s => rw [hl] at h; cases h; simp [ih s hl]
      | undefined => rw [hl] at h; cases h
      | throws => rw [hl] at h; cases h
      | empty => rw [hl] at h; cases h
    | value v =>
      rw [flAll] at h
      cases hl : flAll l with
      | value s => rw [hl] at h; cases h; simp [ih s hl]
      | undefined => rw [hl] at h; cases h
      | throws => rw [hl] at h; cases h
      | empty => rw [hl] at h; cases h

/-- C65, fine gradients, for any arithmetic: undefined exactly if the index of the point, or, for a point in the grid, of a point beside it, has no
representation. -/
theorem C65_fine_undefined_iff {p : Fin 3 → F} {window : F} : flFine A g p window = .undefined ↔
    Lost A g ⟨p, A.one⟩ ∨ (flEstimate A g ⟨p, A.one⟩ ≠ .empty ∧ ∃ b up, Lost A g (beside A p window b up)) := by
  have hest := C65_estimate A g ⟨p, A.one⟩
  unfold flFine
  dsimp only
  cases hi : flIndexOf A g ⟨p, A.one⟩ with
  | none =>
    refine ⟨fun _ => .inl ((flIndexOf_none A g).1 hi), fun _ => rfl⟩
  | some i =>
    have hl : ¬ Lost A g ⟨p, A.one⟩ := fun h => by
      have := (flIndexOf_none A g).2 h
      rw [hi] at this
      cases this
    have hcell := (flIndexOf_some A g).1 hi
    dsimp only
    by_cases hg : inGrid g.dims i = true
    · rw [if_pos hg]
      obtain ⟨lo, hi', -, hv⟩ := (hest.2.2 i hcell).2 (inGrid_axis.1 hg)
      have hne : flEstimate A g ⟨p, A.one⟩ ≠ .empty := by rw [hv]; exact fun h => by cases h
      set L := [flEstimate A g ⟨p, A.one⟩,
          flEstimate A g (flMoved A p 0 (A.sub (p 0) (A.abs window))), flEstimate A g (flMoved A p 0 (A.add (p 0) (A.abs window))),
          flEstimate A g (flMoved A p 1 (A.sub (p 1) (A.abs window))), flEstimate A g (flMoved A p 1 (A.add (p 1) (A.abs window))),
          flEstimate A g (flMoved A p 2 (A.sub (p 2) (A.abs window))), flEstimate A g (flMoved A p 2 (A.add (p 2) (A.abs window)))] with hL
      have hth : ∀ x ∈ L, x ≠ .throws := by
        intro x hx
        simp only [hL, List.mem_cons, List.not_mem_nil, or_false] at hx
        rcases hx with rfl | rfl | rfl | rfl | rfl | rfl | rfl <;> exact (C65_estimate A g _).2.1
      have hmem : .undefined ∈ L ↔ ∃ b up, Lost A g (beside A p window b up) := by
        have hm : ∀ b, beside A p window b false = flMoved A p b (A.sub (p b) (A.abs window)) := fun _ => rfl
        have hp : ∀ b, beside A p window b true = flMoved A p b (A.add (p b) (A.abs window)) := fun _ => rfl
        simp only [hL, List.mem_cons, List.not_mem_nil, or_false]
        constructor
        · rintro (h | h | h | h | h | h | h)
          · exact absurd ((lost_iff A g).2 h.symm) hl
          · exact ⟨0, false, (lost_iff A g).2 h.symm⟩
          · exact ⟨0, true, (lost_iff A g).2 h.symm⟩
          · exact ⟨1, false, (lost_iff A g).2 h.symm⟩
          · exact ⟨1, true, (lost_iff A g).2 h.symm⟩
          · exact ⟨2, false, (lost_iff A g).2 h.symm⟩
          · exact ⟨2, true, (lost_iff A g).2 h.symm⟩
        · rintro ⟨b, up, h⟩
          have h' := ((lost_iff A g).1 h).symm
          cases up
          · rw [hm] at h'
            fin_cases b <;> simp_all
          · rw [hp] at h'
            fin_cases b <;> simp_all
      rw [← hmem, ← flAll_undefined hth]
      cases hA : flAll L with
      | undefined => simp [hne]
      | throws => simp [hl]
      | empty => simp [hl]
      | value r =>
        have hr := flAll_length hA
        rw [hL] at hr
        match r, hr with
        | [c, mx, px, my, py, mz, pz], _ =>
          dsimp only
          simp only [hl, false_or, reduceCtorEq, and_false, iff_false]
          intro h
          unfold Answer.ofOption at h
          split at h <;> cases h
    · rw [if_neg hg]
      have := (hest.2.2 i hcell).1 (fun h => hg (inGrid_axis.2 h))
      simp [this, hl]

/-- One step of the projection: where the estimate is at most the wanted distance and the gradient is not too small, along the gradient. -/
def Spec.Moves (minDist mult : F) (l l' : Vec4 F) : Prop :=
  ∃ dist grad, flEstimate A g l = .value dist ∧ A.le dist minDist = true ∧ flCoarseAt A g l true = .value grad ∧
    A.lt (A.mul g.s A.quarter) (A.norm grad) = true ∧
    ∃ step, step = (if A.lt (A.sub (A.add minDist (A.mul (A.mul g.s mult) A.milli)) dist) (A.mul g.s mult) then
        A.sub (A.add minDist (A.mul (A.mul g.s mult) A.milli)) dist else A.mul g.s mult) ∧
      l' = ⟨fun a => A.add (l.v a) (A.mul (A.normalized grad a) step), A.add l.w (A.mul A.zero step)⟩

/-- The projection gets from one location to another. -/
def Spec.GetsTo (minDist mult : F) : Vec4 F → Vec4 F → Prop := Relation.ReflTransGen (Moves A g minDist mult)

/-- The projection stops at the location because the gradient is too small. -/
def Spec.Flat (minDist : F) (l : Vec4 F) : Prop :=
  ∃ dist grad, flEstimate A g l = .value dist ∧ A.le dist minDist = true ∧ flCoarseAt A g l true = .value grad ∧
    A.lt (A.mul g.s A.quarter) (A.norm grad) = false

/-- The projection is done at the location. -/
def Spec.Done (minDist : F) (l : Vec4 F) : Prop := ∃ dist, flEstimate A g l = .value dist ∧ A.le dist minDist = false

/-- What the loop says at a location it has arrived at. -/
inductive Spec.Ends (minDist mult : F) (l : Vec4 F) : Answer (Vec4 F) → Prop
  | lost : Lost A g l → Spec.Ends minDist mult l .undefined
  | off : flEstimate A g l = .empty → Spec.Ends minDist mult l .throws
  | flat : Flat A g minDist l → Spec.Ends minDist mult l .empty
  | done : Done A g minDist l → A.isOne l.w = true → Spec.Ends minDist mult l (.value l)
  | bad : Done A g minDist l → A.isOne l.w = false → Spec.Ends minDist mult l .throws

/-- The outcome of the loop at a location. -/
def afterAt (minDist mult : F) (fuel : ℕ) (l : Vec4 F) : Option (Answer (Vec4 F)) :=
  match flEstimate A g l with
  | .undefined => some .undefined
  | .value dist => flProjectLoop A g minDist (A.add minDist (A.mul (A.mul g.s mult) A.milli)) (A.mul g.s mult) fuel l dist
  | _ => some .throws

section
variable {A g} {minDist mult : F}

/-- Where an estimate has a value, so has the coarse gradient. -/
theorem coarse_of_estimate {l : Vec4 F} {dist : F} (h : flEstimate A g l = .value dist) : ∃ grad, flCoarseAt A g l true = .value grad := by
  unfold flEstimate at h
  unfold flCoarseAt
  cases hi : flIndexOf A g l with
  | none => rw [hi] at h; cases h
  | some i =>
    rw [hi] at h
    dsimp only at h ⊢
    by_cases hg : inGrid g.dims i = true
    · rw [if_pos hg]
      exact (C65_coarse A g i true).1 ⟨inGrid_axis.1 hg, .inl rfl⟩
    · rw [if_neg hg] at h
      cases h

theorem after_move {l l' : Vec4 F} (h : Moves A g minDist mult l l') (fuel : ℕ) :
    afterAt A g minDist mult (fuel + 1) l = afterAt A g minDist mult fuel l' := by
  obtain ⟨dist, grad, h1, h2, h3, h4, step, h5, rfl⟩ := h
  unfold afterAt
  rw [h1]
  dsimp only
  conv_lhs => unfold flProjectLoop
  rw [if_pos h2]
  dsimp only
  rw [h3]
  dsimp only
  rw [if_pos h4]
  have e : flMin A (A.mul g.s mult) (A.sub (A.add minDist (A.mul (A.mul g.s mult) A.milli)) dist) = step := by rw [h5]; rfl
  rw [e]
  rcases flEstimate A g _ with _ | _ | _ | _ <;> rfl

theorem after_ends {l : Vec4 F} {r : Answer (Vec4 F)} (h : Ends A g minDist mult l r) (fuel : ℕ) :
    afterAt A g minDist mult (fuel + 1) l = some r := by
  unfold afterAt
  cases h with
  | lost h => rw [(lost_iff A g).1 h]
  | off h => rw [h]
  | flat h =>
    obtain ⟨dist, grad, h1, h2, h3, h4⟩ := h
    rw [h1]
    dsimp only
    unfold flProjectLoop
    rw [if_pos h2]
    dsimp only
    rw [h3]
    dsimp only
    rw [if_neg (by rw [h4]; exact Bool.false_ne_true)]
  | done h hw =>
    obtain ⟨dist, h1, h2⟩ := h
    rw [h1]
    dsimp only
    unfold flProjectLoop flProjected
    rw [if_neg (by rw [h2]; exact Bool.false_ne_true), if_pos hw]
  | bad h hw =>
    obtain ⟨dist, h1, h2⟩ := h
    rw [h1]
    dsimp only
    unfold flProjectLoop flProjected
    rw [if_neg (by rw [h2]; exact Bool.false_ne_true), if_neg (by rw [hw]; exact Bool.false_ne_true)]

theorem ends_or_moves (l : Vec4 F) : (∃ r, Ends A g minDist mult l r) ∨ ∃ l', Moves A g minDist mult l l' := by
  rcases he : flEstimate A g l with _ | _ | _ | dist
  · exact .inl ⟨_, .lost ((lost_iff A g).2 he)⟩
  · exact absurd he (C65_estimate A g l).2.1
  · exact .inl ⟨_, .off he⟩
  · rcases hd : A.le dist minDist with _ | _
    · rcases hw : A.isOne l.w with _ | _
      · exact .inl ⟨_, .bad ⟨dist, he, hd⟩ hw⟩
      · exact .inl ⟨_, .done ⟨dist, he, hd⟩ hw⟩
    · obtain ⟨grad, hg⟩ := coarse_of_estimate he
      rcases hn : A.lt (A.mul g.s A.quarter) (A.norm grad) with _ | _
      · exact .inl ⟨_, .flat ⟨dist, grad, he, hd, hg, hn⟩⟩
      · exact .inr ⟨_, dist, grad, he, hd, hg, hn, _, rfl, rfl⟩

theorem after_zero {l : Vec4 F} {r : Answer (Vec4 F)} (h : afterAt A g minDist mult 0 l = some r) : Ends A g minDist mult l r := by
  rcases ends_or_moves (A := A) (g := g) (minDist := minDist) (mult := mult) l with ⟨r', h'⟩ | ⟨l', h'⟩
  · have : r = r' := by
      unfold afterAt at h
      cases h' with
      | lost h1 => rw [(lost_iff A g).1 h1] at h; cases h; rfl
      | off h1 => rw [h1] at h; cases h; rfl
      | flat h1 =>
        obtain ⟨dist, grad, h1, h2, -⟩ := h1
        rw [h1] at h
        dsimp only at h
        unfold flProjectLoop at h
        rw [if_pos h2] at h
        cases h
      | done h1 hw =>
        obtain ⟨dist, h1, h2⟩ := h1
        rw [h1] at h
        dsimp only at h
        unfold flProjectLoop flProjected at h
        rw [if_neg (by rw [h2]; exact Bool.false_ne_true), if_pos hw] at h
        cases h; rfl
      | bad h1 hw =>
        obtain ⟨dist, h1, h2⟩ := h1
        rw [h1] at h
        dsimp only at h
        unfold flProjectLoop flProjected at h
        rw [if_neg (by rw [h2]; exact Bool.false_ne_true), if_neg (by rw [hw]; exact Bool.false_ne_true)] at h
        cases h; rfl
    rw [this]
    exact h'
  · obtain ⟨dist, grad, h1, h2, -⟩ := h'
    unfold afterAt at h
    rw [h1] at h
    dsimp only at h
    unfold flProjectLoop at h
    rw [if_pos h2] at h
    cases h

theorem after_iff {r : Answer (Vec4 F)} {l : Vec4 F} : (∃ fuel, afterAt A g minDist mult fuel l = some r) ↔
    ∃ l', GetsTo A g minDist mult l l' ∧ Ends A g minDist mult l' r := by
  constructor
  · rintro ⟨fuel, h⟩
    induction fuel generalizing l with
    | zero => exact ⟨l, .refl, after_zero h⟩
    | succ fuel ih =>
      rcases ends_or_moves (A := A) (g := g) (minDist := minDist) (mult := mult) l with ⟨r', h'⟩ | ⟨l', h'⟩
      · rw [after_ends h' fuel] at h
        cases h
        exact ⟨l, .refl, h'⟩
      · rw [after_move h' fuel] at h
        obtain ⟨l'', h1, h2⟩ := ih h
        exact ⟨l'', .head h' h1, h2⟩
  · rintro ⟨l', h1, h2⟩
    induction h1 using Relation.ReflTransGen.head_induction_on with
    | refl => exact ⟨1, after_ends h2 0⟩
    | head h _ ih =>
      obtain ⟨fuel, hf⟩ := ih
      exact ⟨fuel + 1, (after_move h fuel).trans hf⟩

end

/-- C65, projection, for any arithmetic: outside the grid the location is returned, if its last coordinate is 1.  Otherwise the projection moves along the
gradient, step by step, and what it says at the end is decided at the location it has reached: undefined if the index of its cell has no
representation, an exception if it is outside the grid, no answer if the gradient is too small, and else the location, when the estimate there is
not at most the wanted distance (an exception if the last coordinate is not 1). -/
theorem C65_project_outcome {loc : Vec4 F} {minDist mult : F} {r : Answer (Vec4 F)} :
    (flEstimate A g loc = .empty → ∀ fuel, flProject A g fuel loc minDist mult = some (if A.isOne loc.w then .value loc else .throws)) ∧
    (flEstimate A g loc ≠ .empty → ((∃ fuel, flProject A g fuel loc minDist mult = some r) ↔
      ∃ l, GetsTo A g minDist mult loc l ∧ Ends A g minDist mult l r)) := by
  cases hi : flIndexOf A g loc with
  | none =>
    have he := (lost_iff A g).1 ((flIndexOf_none A g).1 hi)
    refine ⟨fun h => (by rw [he] at h; cases h), fun _ => ?_⟩
    rw [← after_iff]
    unfold flProject afterAt
    rw [hi, he]
  | some i =>
    have hcell := (flIndexOf_some A g).1 hi
    by_cases hg : inGrid g.dims i = true
    · obtain ⟨lo, hi', -, hv⟩ := ((C65_estimate A g loc).2.2 i hcell).2 (inGrid_axis.1 hg)
      refine ⟨fun h => (by rw [hv] at h; cases h), fun _ => ?_⟩
      rw [← after_iff]
      unfold flProject afterAt
      rw [hi, hv]
      dsimp only
      simp only [hg, if_true]
    · have he := ((C65_estimate A g loc).2.2 i hcell).1 (fun h => hg (inGrid_axis.2 h))
      refine ⟨fun _ fuel => ?_, fun h => absurd he h⟩
      unfold flProject flProjected
      rw [hi]
      dsimp only
      rw [if_neg hg]

end

/-! ### Concrete cases -/

theorem halfFull_inside (x : Fl) (h : ∀ a, showQuery.toInt (showQuery.mul (halfFull.toGrid ⟨![x, .fin (1 / 2), .fin (1 / 2)], .fin 1⟩ a) halfFull.inv) =
    some ((![1, 0, 0] : Fin 3 → ℤ) a)) : flEstimate showQuery halfFull ⟨![x, .fin (1 / 2), .fin (1 / 2)], .fin 1⟩ ≠ .empty := by
  obtain ⟨lo, hi, -, hv⟩ := ((C65_estimate showQuery halfFull _).2.2 ![1, 0, 0] h).2 (by unfold CellInGrid; decide)
  rw [hv]
  exact fun h => by cases h

/-- A point in the grid and a window so large that the neighbours have no index. -/
example : flFine showQuery halfFull ![.fin (3 / 2), .fin (1 / 2), .fin (1 / 2)] (.fin (2 ^ 70)) = .undefined :=
  (C65_fine_undefined_iff _ _).2 (.inr ⟨halfFull_inside _ (by decide +kernel), 0, true, 0, by decide +kernel⟩)

/-- A location in the grid. -/
def startLoc : Vec4 Fl := ⟨![.fin (7 / 4), .fin (1 / 2), .fin (1 / 2)], .fin 1⟩

theorem isUndefined_iff {r : Option (Answer (Vec4 Fl))} : (match r with | some .undefined => true | _ => false) = true ↔ r = some .undefined := by
  rcases r with _ | _ | _ | _ | _ <;> simp

theorem isThrows_iff {r : Option (Answer (Vec4 Fl))} : (match r with | some .throws => true | _ => false) = true ↔ r = some .throws := by
  rcases r with _ | _ | _ | _ | _ <;> simp

/-- A clearance of `2^70` cells is asked for: the first step leads to a location whose index has no representation. -/
example : ∃ l, GetsTo showQuery halfFull (.fin (2 ^ 70)) (.fin (2 ^ 70)) startLoc l ∧ Lost showQuery halfFull l := by
  obtain ⟨l, h1, h2⟩ := ((C65_project_outcome showQuery halfFull (r := .undefined)).2 (halfFull_inside _ (by decide +kernel))).1
    ⟨2, isUndefined_iff.1 (by decide +kernel : (match flProject showQuery halfFull 2 startLoc (.fin (2 ^ 70)) (.fin (2 ^ 70)) with
      | some .undefined => true | _ => false) = true)⟩
  cases h2 with
  | lost h => exact ⟨l, h1, h⟩

/-- A clearance of 100 cells is asked for: the first step leads off the grid, and the call throws. -/
example : ∃ l, GetsTo showQuery halfFull (.fin 100) (.fin 10) startLoc l ∧ Ends showQuery halfFull (.fin 100) (.fin 10) l .throws :=
  ((C65_project_outcome showQuery halfFull (r := .throws)).2 (halfFull_inside _ (by decide +kernel))).1
    ⟨2, isThrows_iff.1 (by decide +kernel : (match flProject showQuery halfFull 2 startLoc (.fin 100) (.fin 10) with
      | some .throws => true | _ => false) = true)⟩

end VGT
