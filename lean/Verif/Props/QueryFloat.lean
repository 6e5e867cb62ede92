import Verif.Model.SDFQueryFloat
import Verif.Props.RaycastFloat
import Verif.Props.Extrema

/-!
C65: queries on a signed distance field whatever the floating-point arithmetic does.
-/
set_option autoImplicit false

namespace VGT
open VGT.EDT VGT.Spec

/-- Lower and upper cells around the cell `i`: inside the grid, one of them is `i`, and they are neighbours wherever the
grid has more than one cell. -/
structure Spec.BoxAround (n : Fin 3 → ℕ) (i lo hi : Fin 3 → ℤ) : Prop where
  inside : ∀ a, 0 ≤ lo a ∧ hi a < n a
  self : ∀ a, lo a = i a ∨ hi a = i a
  adjacent : ∀ a, hi a = lo a + 1 ∨ n a = 1 ∧ hi a = lo a

/-- The corner of the box between two cells. -/
def Spec.corner (lo hi : Fin 3 → ℤ) (x y z : Bool) : Fin 3 → ℤ :=
  ![if x then hi 0 else lo 0, if y then hi 1 else lo 1, if z then hi 2 else lo 2]

/-- The value stored for a cell. -/
def Spec.stored {F : Type} (data : ℕ × ℕ × ℕ → F) (c : Fin 3 → ℤ) : F := data ((c 0).toNat, (c 1).toNat, (c 2).toNat)

section
variable {F : Type} (A : QueryArith F) (g : FlSDF F)

theorem flAxisIndices_around {i : ℤ} {n : ℕ} (h0 : 0 ≤ i) (hn : i < n) (up : Bool) :
    (0 ≤ (flAxisIndices i n up).1 ∧ (flAxisIndices i n up).2 < n) ∧
    ((flAxisIndices i n up).1 = i ∨ (flAxisIndices i n up).2 = i) ∧
    ((flAxisIndices i n up).2 = (flAxisIndices i n up).1 + 1 ∨ n = 1 ∧ (flAxisIndices i n up).2 = (flAxisIndices i n up).1) := by
  unfold flAxisIndices
  split_ifs <;> dsimp only <;> omega

theorem FlSDF.get_in {F : Type} {g : FlSDF F} {i : IVec} (h : CellInGrid (axisCells g.dims) i) :
    g.get i = some (stored g.data i) := by
  have h' := of_decide_eq_true (inGrid_axis.2 h)
  unfold FlSDF.get getImm IVec.toIdx
  rw [if_pos ⟨h'.1, h'.2.1, h'.2.2.1, h'.2.2.2.1, h'.2.2.2.2.1, h'.2.2.2.2.2⟩]
  rfl

theorem flIndexOf_some {loc : Vec4 F} {i : IVec} :
    flIndexOf A g loc = some i ↔ ∀ a, A.toInt (A.mul (g.toGrid loc a) g.inv) = some (i a) := axes3_some

theorem flIndexOf_none {loc : Vec4 F} :
    flIndexOf A g loc = none ↔ ∃ a, A.toInt (A.mul (g.toGrid loc a) g.inv) = none := axes3_none

/-- The distance from a cell centre to the boundary as the code computes it from the stored value. -/
def Spec.towardsBoundary (v : F) : F :=
  if A.le A.zero v then A.sub v (A.mul g.s A.half) else A.add v (A.mul g.s A.half)

theorem corner_in {n : Fin 3 → ℕ} {i lo hi : IVec} (h : BoxAround n i lo hi) (x y z : Bool) : CellInGrid n (corner lo hi x y z) := by
  have key : ∀ a, (0 ≤ lo a ∧ lo a < n a) ∧ (0 ≤ hi a ∧ hi a < n a) := by
    intro a
    have h1 := h.inside a
    have h2 := h.adjacent a
    omega
  intro a
  fin_cases a
  · cases x
    · exact (key 0).1
    · exact (key 0).2
  · cases y
    · exact (key 1).1
    · exact (key 1).2
  · cases z
    · exact (key 2).1
    · exact (key 2).2

/-- The pairs of cells picked by the code. -/
theorem flPair_around {loc : Vec4 F} {i : IVec} (hi : CellInGrid (axisCells g.dims) i) :
    BoxAround (axisCells g.dims) i (fun a => (flPair A g loc i a).1) (fun a => (flPair A g loc i a).2) := by
  have key := fun a => flAxisIndices_around (hi a).1 (hi a).2
    (A.le A.zero (A.sub (g.toGrid loc a) (flCentre A g i a)))
  exact ⟨fun a => (key a).1, fun a => (key a).2.1, fun a => (key a).2.2⟩

theorem corners8_some {F : Type} {f : Bool → Bool → Bool → Option F} {v : Bool → Bool → Bool → F}
    (h : ∀ x y z, f x y z = some (v x y z)) : corners8 f = some v := by
  unfold corners8
  simp only [h, Option.bind_some, Option.map_some, Option.some.injEq]
  funext x y z
  cases x <;> cases y <;> cases z <;> rfl

theorem flInterpolate_eq {loc : Vec4 F} {i : IVec} (hi : CellInGrid (axisCells g.dims) i) :
    flInterpolate A g loc i = some (A.interp (flCentre A g fun a => (flPair A g loc i a).1)
      (fun a => A.add (flCentre A g (fun a => (flPair A g loc i a).1) a) g.s)
      (fun x y z => towardsBoundary A g (stored g.data
        (corner (fun a => (flPair A g loc i a).1) (fun a => (flPair A g loc i a).2) x y z))) (g.toGrid loc)) := by
  have ha := flPair_around A g (loc := loc) hi
  unfold flInterpolate
  have hcell : ∀ x y z, (![pick (flPair A g loc i 0) x, pick (flPair A g loc i 1) y, pick (flPair A g loc i 2) z] : IVec) =
      corner (fun a => (flPair A g loc i a).1) (fun a => (flPair A g loc i a).2) x y z := fun x y z => rfl
  dsimp only
  rw [corners8_some (v := fun x y z => towardsBoundary A g (stored g.data
    (corner (fun a => (flPair A g loc i a).1) (fun a => (flPair A g loc i a).2) x y z))) ?_]
  · rw [Option.map_some]
    have hlow : flCentre A g ![pick (flPair A g loc i 0) false, pick (flPair A g loc i 1) false, pick (flPair A g loc i 2) false] =
        flCentre A g fun a => (flPair A g loc i a).1 := by
      congr 1
      funext a
      fin_cases a <;> rfl
    rw [hlow]
  · intro x y z
    unfold flCorrected
    rw [hcell, FlSDF.get_in (corner_in ha x y z), Option.map_some]
    rfl

/-- C65, estimates, for any arithmetic: the only undefined behaviour is the conversion of the location to an index; the
call never throws; it has no answer exactly outside the grid; and its answer is interpolated from the distances of the
eight cells of a box that contains the location's cell and lies in the grid. -/
theorem C65_estimate (loc : Vec4 F) :
    (flEstimate A g loc = .undefined ↔ ∃ a, A.toInt (A.mul (g.toGrid loc a) g.inv) = none) ∧
    (flEstimate A g loc ≠ .throws) ∧
    ∀ i : Fin 3 → ℤ, (∀ a, A.toInt (A.mul (g.toGrid loc a) g.inv) = some (i a)) →
      (¬ CellInGrid (axisCells g.dims) i → flEstimate A g loc = .empty) ∧
      (CellInGrid (axisCells g.dims) i → ∃ lo hi, BoxAround (axisCells g.dims) i lo hi ∧
        flEstimate A g loc = .value (A.interp (fun a => A.mul (A.add (A.ofInt (lo a)) A.half) g.s)
          (fun a => A.add (A.mul (A.add (A.ofInt (lo a)) A.half) g.s) g.s)
          (fun x y z => towardsBoundary A g (stored g.data (corner lo hi x y z))) (g.toGrid loc))) := by
  have hin : ∀ i, flIndexOf A g loc = some i → CellInGrid (axisCells g.dims) i → flEstimate A g loc = .value
      (A.interp (flCentre A g fun a => (flPair A g loc i a).1)
      (fun a => A.add (flCentre A g (fun a => (flPair A g loc i a).1) a) g.s)
      (fun x y z => towardsBoundary A g (stored g.data
        (corner (fun a => (flPair A g loc i a).1) (fun a => (flPair A g loc i a).2) x y z))) (g.toGrid loc)) := by
    intro i h1 h2
    unfold flEstimate
    rw [h1]
    dsimp only
    rw [if_pos (inGrid_axis.2 h2), flInterpolate_eq A g h2]
  have hout : ∀ i, flIndexOf A g loc = some i → ¬ CellInGrid (axisCells g.dims) i → flEstimate A g loc = .empty := by
    intro i h1 h2
    unfold flEstimate
    rw [h1]
    dsimp only
    rw [if_neg (fun h => h2 (inGrid_axis.1 h))]
  refine ⟨?_, ?_, ?_⟩
  · rw [← flIndexOf_none]
    rcases h : flIndexOf A g loc with _ | i
    · unfold flEstimate
      rw [h]
      simp
    · by_cases hi : CellInGrid (axisCells g.dims) i
      · simp [hin i h hi]
      · simp [hout i h hi]
  · rcases h : flIndexOf A g loc with _ | i
    · unfold flEstimate
      rw [h]
      simp
    · by_cases hi : CellInGrid (axisCells g.dims) i
      · simp [hin i h hi]
      · simp [hout i h hi]
  · intro i h
    have h' := (flIndexOf_some A g).2 h
    exact ⟨hout i h', fun hi => ⟨_, _, flPair_around A g hi, hin i h' hi⟩⟩

/-! ### Gradients -/

theorem flInterior_some {i : IVec} (hi : CellInGrid (axisCells g.dims) i) {a : Fin 3} (h0 : 0 < i a)
    (h1 : i a < (axisCells g.dims a : ℤ) - 1) : flInteriorAxis A g i a =
      some (A.mul (A.storedSub (stored g.data (moveTo i a (i a + 1))) (stored g.data (moveTo i a (i a - 1))))
        (A.div A.one (A.mul A.two g.s))) := by
  have e1 : CellInGrid (axisCells g.dims) (moveTo i a (i a + 1)) :=
    inGrid_axis.1 (moveTo_inGrid (inGrid_axis.2 hi) (by omega) (by omega))
  have e2 : CellInGrid (axisCells g.dims) (moveTo i a (i a - 1)) :=
    inGrid_axis.1 (moveTo_inGrid (inGrid_axis.2 hi) (by omega) (by omega))
  unfold flInteriorAxis
  rw [FlSDF.get_in e1, FlSDF.get_in e2]
  rfl

/-- Last cell before and first cell after `i` on an axis, within the grid. -/
def Spec.nearLow (i : ℤ) : ℤ := max 0 (i - 1)
def Spec.nearHigh (n : ℕ) (i : ℤ) : ℤ := min ((n : ℤ) - 1) (i + 1)

theorem flEdge_some {i : IVec} (hi : CellInGrid (axisCells g.dims) i) (a : Fin 3) : flEdgeAxis A g i a =
      some (if A.lt A.zero (A.mul (A.ofInt (nearHigh (axisCells g.dims a) (i a) - nearLow (i a))) g.s) then
        A.mul (A.sub (stored g.data (moveTo i a (nearHigh (axisCells g.dims a) (i a))))
          (stored g.data (moveTo i a (nearLow (i a)))))
          (A.div A.one (A.mul (A.ofInt (nearHigh (axisCells g.dims a) (i a) - nearLow (i a))) g.s))
      else A.zero) := by
  have ha := hi a
  have e1 : CellInGrid (axisCells g.dims) (moveTo i a (nearHigh (axisCells g.dims a) (i a))) :=
    inGrid_axis.1 (moveTo_inGrid (inGrid_axis.2 hi) (by unfold nearHigh; omega) (by unfold nearHigh; omega))
  have e2 : CellInGrid (axisCells g.dims) (moveTo i a (nearLow (i a))) :=
    inGrid_axis.1 (moveTo_inGrid (inGrid_axis.2 hi) (by unfold nearLow; omega) (by unfold nearLow; omega))
  unfold flEdgeAxis
  dsimp only
  by_cases h : A.lt A.zero (A.mul (A.ofInt (nearHigh (axisCells g.dims a) (i a) - nearLow (i a))) g.s) = true
  · have h' := h
    unfold nearHigh nearLow at h'
    rw [if_pos h', if_pos h]
    unfold nearHigh at e1
    unfold nearLow at e2
    rw [FlSDF.get_in e1, FlSDF.get_in e2]
    rfl
  · have h' := h
    unfold nearHigh nearLow at h'
    rw [if_neg h', if_neg h]

/-- C65, coarse gradients, for any arithmetic: there is a gradient exactly for cells of the grid that are interior or asked
for with edge gradients; nothing is thrown and nothing is undefined. -/
theorem C65_coarse (i : Fin 3 → ℤ) (edge : Bool) :
    (CellInGrid (axisCells g.dims) i ∧ (edge = true ∨ ¬ OnEdge (axisCells g.dims) i) → ∃ v, flCoarse A g i edge = .value v) ∧
    (¬ (CellInGrid (axisCells g.dims) i ∧ (edge = true ∨ ¬ OnEdge (axisCells g.dims) i)) → flCoarse A g i edge = .empty) := by
  unfold flCoarse flCoarseGrid
  by_cases hi : CellInGrid (axisCells g.dims) i
  · have hi' := inGrid_axis.2 hi
    rw [if_pos hi']
    by_cases he : OnEdge (axisCells g.dims) i
    · have hne := (not_congr (not_onEdge hi')).2 (not_not.2 he)
      rw [if_neg hne]
      cases edge
      · refine ⟨?_, fun _ => rfl⟩
        rintro ⟨-, h | h⟩
        · cases h
        · exact absurd he h
      · rw [if_pos rfl, flEdge_some A g hi, flEdge_some A g hi, flEdge_some A g hi]
        refine ⟨fun _ => ⟨_, rfl⟩, fun h => absurd ⟨hi, .inl rfl⟩ h⟩
    · have hne := (not_onEdge hi').2 he
      rw [if_pos hne, flInterior_some A g hi hne.1 hne.2.2.2.1, flInterior_some A g hi hne.2.1 hne.2.2.2.2.1,
        flInterior_some A g hi hne.2.2.1 hne.2.2.2.2.2]
      refine ⟨fun _ => ⟨_, rfl⟩, fun h => absurd ⟨hi, .inr he⟩ h⟩
  · rw [if_neg (fun h => hi (inGrid_axis.1 h))]
    refine ⟨fun h => absurd h.1 hi, fun _ => rfl⟩

/-- C65, coarse gradients at locations. -/
theorem C65_coarse_at (loc : Vec4 F) (edge : Bool) :
    (flCoarseAt A g loc edge = .undefined ↔ ∃ a, A.toInt (A.mul (g.toGrid loc a) g.inv) = none) ∧
    flCoarseAt A g loc edge ≠ .throws := by
  unfold flCoarseAt
  rw [← flIndexOf_none]
  rcases flIndexOf A g loc with _ | i
  · simp
  · dsimp only
    split_ifs with h
    · obtain ⟨h1, h2⟩ := C65_coarse A g i edge
      by_cases hc : CellInGrid (axisCells g.dims) i ∧ (edge = true ∨ ¬ OnEdge (axisCells g.dims) i)
      · obtain ⟨v, hv⟩ := h1 hc
        simp [hv]
      · simp [h2 hc]
    · simp

/-! ### Fine gradients -/

/-- The answer as the optional value of a query object. -/
def Spec.answered {α : Type} : Answer α → Option α
  | .value a => some a
  | _ => none

theorem flAll_eq : ∀ {l : List (Answer F)}, (∀ x ∈ l, x = .empty ∨ ∃ v, x = .value v) → flAll l = .value (l.map answered)
  | [], _ => rfl
  | x :: l, h => by
    have hl := flAll_eq (l := l) fun y hy => h y (List.mem_cons_of_mem _ hy)
    rcases h x List.mem_cons_self with rfl | ⟨v, rfl⟩
    · unfold flAll
      rw [hl]
      rfl
    · unfold flAll
      rw [hl]
      rfl

theorem flAxisFine_isSome {c : F} {m q : Option F} {x xm xp : F} :
    (flAxisFine A (some c) m q x xm xp).isSome = (m.isSome || q.isSome) := by
  cases m <;> cases q <;> rfl

/-- C65, fine gradients, for any arithmetic: if all seven locations can be converted to cells, there is no answer exactly
outside the grid, and the call throws exactly if on some axis both neighbouring locations are outside the grid. -/
theorem C65_fine {p : Fin 3 → F} {nominal : F} {i : Fin 3 → ℤ} {m q : Fin 3 → Fin 3 → ℤ}
    (hi : ∀ a, A.toInt (A.mul (g.toGrid ⟨p, A.one⟩ a) g.inv) = some (i a))
    (hm : ∀ b a, A.toInt (A.mul (g.toGrid ⟨fun c => if c = b then A.sub (p b) (A.abs nominal) else p c, A.one⟩ a) g.inv) = some (m b a))
    (hq : ∀ b a, A.toInt (A.mul (g.toGrid ⟨fun c => if c = b then A.add (p b) (A.abs nominal) else p c, A.one⟩ a) g.inv) = some (q b a)) :
    (¬ CellInGrid (axisCells g.dims) i → flFine A g p nominal = .empty) ∧
    (CellInGrid (axisCells g.dims) i → (∀ b, CellInGrid (axisCells g.dims) (m b) ∨ CellInGrid (axisCells g.dims) (q b)) →
      ∃ v, flFine A g p nominal = .value v) ∧
    (CellInGrid (axisCells g.dims) i → (∃ b, ¬ CellInGrid (axisCells g.dims) (m b) ∧ ¬ CellInGrid (axisCells g.dims) (q b)) →
      flFine A g p nominal = .throws) := by
  have hidx := (flIndexOf_some A g).2 hi
  have two : ∀ {loc : Vec4 F} {j : Fin 3 → ℤ}, (∀ a, A.toInt (A.mul (g.toGrid loc a) g.inv) = some (j a)) →
      (flEstimate A g loc = .empty ∨ ∃ v, flEstimate A g loc = .value v) ∧
      ((answered (flEstimate A g loc)).isSome = true ↔ CellInGrid (axisCells g.dims) j) := by
    intro loc j hj
    obtain ⟨-, -, h⟩ := C65_estimate A g loc
    obtain ⟨h1, h2⟩ := h j hj
    by_cases hc : CellInGrid (axisCells g.dims) j
    · obtain ⟨lo, hi', -, hv⟩ := h2 hc
      rw [hv]
      exact ⟨.inr ⟨_, rfl⟩, by simp [answered, hc]⟩
    · rw [h1 hc]
      exact ⟨.inl rfl, by simp [answered, hc]⟩
  have tm := fun b => two (hm b)
  have tq := fun b => two (hq b)
  by_cases hc : CellInGrid (axisCells g.dims) i
  · have hev : flFine A g p nominal = .ofOption (flVec3
        (flAxisFine A (answered (flEstimate A g ⟨p, A.one⟩)) (answered (flEstimate A g (flMoved A p 0 (A.sub (p 0) (A.abs nominal)))))
          (answered (flEstimate A g (flMoved A p 0 (A.add (p 0) (A.abs nominal))))) (p 0) (A.sub (p 0) (A.abs nominal)) (A.add (p 0) (A.abs nominal)))
        (flAxisFine A (answered (flEstimate A g ⟨p, A.one⟩)) (answered (flEstimate A g (flMoved A p 1 (A.sub (p 1) (A.abs nominal)))))
          (answered (flEstimate A g (flMoved A p 1 (A.add (p 1) (A.abs nominal))))) (p 1) (A.sub (p 1) (A.abs nominal)) (A.add (p 1) (A.abs nominal)))
        (flAxisFine A (answered (flEstimate A g ⟨p, A.one⟩)) (answered (flEstimate A g (flMoved A p 2 (A.sub (p 2) (A.abs nominal)))))
          (answered (flEstimate A g (flMoved A p 2 (A.add (p 2) (A.abs nominal))))) (p 2) (A.sub (p 2) (A.abs nominal)) (A.add (p 2) (A.abs nominal)))) := by
      unfold flFine
      dsimp only
      rw [hidx]
      dsimp only
      rw [if_pos (inGrid_axis.2 hc), flAll_eq]
      · rfl
      · intro x hx
        simp only [List.mem_cons, List.not_mem_nil, or_false] at hx
        rcases hx with rfl | rfl | rfl | rfl | rfl | rfl | rfl
        · exact (two hi).1
        · exact (tm 0).1
        · exact (tq 0).1
        · exact (tm 1).1
        · exact (tq 1).1
        · exact (tm 2).1
        · exact (tq 2).1
    obtain ⟨c, hcv⟩ := Option.isSome_iff_exists.1 ((two hi).2.2 hc)
    rw [hcv] at hev
    have axis : ∀ b, (flAxisFine A (some c) (answered (flEstimate A g (flMoved A p b (A.sub (p b) (A.abs nominal)))))
          (answered (flEstimate A g (flMoved A p b (A.add (p b) (A.abs nominal))))) (p b) (A.sub (p b) (A.abs nominal))
          (A.add (p b) (A.abs nominal))).isSome = true ↔
        (CellInGrid (axisCells g.dims) (m b) ∨ CellInGrid (axisCells g.dims) (q b)) := by
      intro b
      rw [flAxisFine_isSome, Bool.or_eq_true]
      exact or_congr (tm b).2 (tq b).2
    refine ⟨fun h => absurd hc h, fun _ hb => ?_, ?_⟩
    · obtain ⟨x, hx⟩ := Option.isSome_iff_exists.1 ((axis 0).2 (hb 0))
      obtain ⟨y, hy⟩ := Option.isSome_iff_exists.1 ((axis 1).2 (hb 1))
      obtain ⟨z, hz⟩ := Option.isSome_iff_exists.1 ((axis 2).2 (hb 2))
      rw [hx, hy, hz] at hev
      exact ⟨_, hev⟩
    · rintro - ⟨b, hb⟩
      have hn := mt (axis b).1 (by tauto)
      rw [Bool.not_eq_true, Option.isSome_eq_false_iff, Option.isNone_iff_eq_none] at hn
      rw [hev]
      have none3 : ∀ {x y z : Option F}, (x = none ∨ y = none ∨ z = none) → flVec3 x y z = none := by
        intro x y z h
        rcases x with _ | x <;> rcases y with _ | y <;> rcases z with _ | z <;> simp_all [flVec3]
      rw [none3 (by fin_cases b; exacts [.inl hn, .inr (.inl hn), .inr (.inr hn)])]
      rfl
  · refine ⟨fun _ => ?_, fun h => absurd h hc, fun h => absurd h hc⟩
    unfold flFine
    dsimp only
    rw [hidx]
    dsimp only
    rw [if_neg (fun h => hc (inGrid_axis.1 h))]

/-! ### Projection -/

theorem flLoop_value {minDist margin maxStep : F} : ∀ {fuel : ℕ} {loc p : Vec4 F} {dist : F},
    flEstimate A g loc = .value dist → flProjectLoop A g minDist margin maxStep fuel loc dist = some (.value p) →
    A.isOne p.w = true ∧ ∃ d, flEstimate A g p = .value d ∧ A.le d minDist = false := by
  intro fuel
  induction fuel with
  | zero =>
    intro loc p dist he h
    unfold flProjectLoop at h
    by_cases hd : A.le dist minDist = true
    · rw [if_pos hd] at h
      cases h
    · rw [if_neg hd] at h
      unfold flProjected at h
      split_ifs at h with hw
      · cases h
        exact ⟨hw, dist, he, by simpa using hd⟩
      · cases h
  | succ fuel ih =>
    intro loc p dist he h
    unfold flProjectLoop at h
    by_cases hd : A.le dist minDist = true
    · rw [if_pos hd] at h
      dsimp only at h
      split at h
      · cases h
      · cases h
      · cases h
      · split_ifs at h with hn
        split at h
        · cases h
        · rename_i dist' he'
          exact ih he' h
        · cases h
        · cases h
    · rw [if_neg hd] at h
      unfold flProjected at h
      split_ifs at h with hw
      · cases h
        exact ⟨hw, dist, he, by simpa using hd⟩
      · cases h

/-- C65, projection, for any arithmetic: a returned position is either the given one, outside the grid, or in the grid, and
the estimated distance there is not at most the requested distance.  (It may be NaN, see `C66_full_map_projection`.) -/
theorem C65_project {fuel : ℕ} {loc p : Vec4 F} {minDist mult : F}
    (h : flProject A g fuel loc minDist mult = some (.value p)) :
    A.isOne p.w = true ∧
    ((p = loc ∧ flEstimate A g loc = .empty) ∨ ∃ d, flEstimate A g p = .value d ∧ A.le d minDist = false) := by
  unfold flProject at h
  rcases hi : flIndexOf A g loc with _ | i
  · rw [hi] at h
    cases h
  · rw [hi] at h
    dsimp only at h
    by_cases hg : inGrid g.dims i = true
    · rw [if_pos hg] at h
      rcases he : flEstimate A g loc with _ | _ | _ | dist
      · rw [he] at h; cases h
      · rw [he] at h; cases h
      · rw [he] at h; cases h
      · rw [he] at h
        obtain ⟨h1, h2⟩ := flLoop_value A g he h
        exact ⟨h1, .inr h2⟩
    · rw [if_neg hg] at h
      unfold flProjected at h
      split_ifs at h with hw
      · cases h
        refine ⟨hw, .inl ⟨rfl, ?_⟩⟩
        unfold flEstimate
        rw [hi]
        dsimp only
        rw [if_neg hg]
      · cases h

/-! ### Local extrema -/

/-- C65, local extrema, for any arithmetic, infinities and NaN: the computation ends, with at most as many steps per cell as
there are cells, and every cell of the grid gets a value: plus infinity if the steps lead off the grid, otherwise the centre
of a cell where they end. -/
theorem C65_extrema {K : Type} [Field K] [LinearOrder K] [IsStrictOrderedRing K] [FloorRing K] (s : K) {fuel : ℕ}
    (hfuel : g.dims.nx * (g.dims.ny * g.dims.nz) ≤ fuel) :
    ∃ m, flExtrema A g s fuel = some m ∧ (∀ c, ¬ CellInGrid (axisCells g.dims) c → m c = none) ∧
      ∀ c, CellInGrid (axisCells g.dims) c →
        (m c = some .off ∧ RunsOff (CellInGrid (axisCells g.dims)) (fun i => flFlatAt A g i = true) (flNextAt A g) c) ∨
        (∃ e, m c = some (.at (cellCentre s e)) ∧
          EndsAt (CellInGrid (axisCells g.dims)) (fun i => flFlatAt A g i = true) (flNextAt A g) c e) :=
  C20_map_complete_any_steps _ s _ _ hfuel

end

/-! ### Exact arithmetic -/

section
variable {K : Type} [Field K] [LinearOrder K] [IsStrictOrderedRing K] [FloorRing K]

/-- Exact arithmetic (no infinity; it is not used). -/
def exactQuery (norm : Vec K → K) : QueryArith K where
  add := fun a b => a + b
  sub := fun a b => a - b
  mul := fun a b => a * b
  div := fun a b => a / b
  abs := fun a => |a|
  lt := fun a b => decide (a < b)
  le := fun a b => decide (a ≤ b)
  zero := 0
  one := 1
  half := 1 / 2
  inf := 0
  tiny := 1 / 10 ^ 10
  ofInt := fun i => (i : K)
  toInt := fun x => some ⌊x⌋
  fits := fun _ => true
  neg := fun a => -a
  storedSub := fun a b => a - b
  two := 2
  quarter := 1 / 4
  flatFactor := 6125 / 100000
  milli := 1 / 1000
  isOne := fun a => decide (a = 1)
  norm := norm
  normalized := normalized norm
  interp := fun lo hi v q => trilinear lo hi (v false false false) (v false false true) (v false true false)
    (v false true true) (v true false false) (v true false true) (v true true false) (v true true true) q

/-- A field of the exact model. -/
def SDFGrid.fl (g : SDFGrid K) : FlSDF K :=
  ⟨g.dims, g.s, 1 / g.s, g.data, fun x => (g.pose.applyInv x).v, fun p => (g.pose.apply (point4 p)).v,
    fun v => (g.pose.apply ⟨v, 0⟩).v⟩

/-- The outcomes of the exact model. -/
def Spec.asAnswer {α : Type} : Option (Option α) → Answer α
  | none => .throws
  | some none => .empty
  | some (some a) => .value a

/-- The outcomes of a projection of the exact model. -/
def Spec.asProjected : Projection K → Answer (Vec4 K)
  | .throws => .throws
  | .empty => .empty
  | .pos p => .value p

variable (norm : Vec K → K) (g : SDFGrid K)

theorem flIndexOf_exact (loc : Vec4 K) : flIndexOf (exactQuery norm) g.fl loc = some (g.indexOf loc) := by
  refine (flIndexOf_some _ _).2 fun a => ?_
  show some ⌊(g.pose.applyInv loc).v a * (1 / g.s)⌋ = _
  rw [mul_one_div]
  rfl

theorem flAxisIndices_exact (i n : ℤ) (x : K) : flAxisIndices i n (decide (0 ≤ x)) = axisIndices i n x := by
  unfold flAxisIndices axisIndices
  by_cases h : 0 ≤ x
  · simp [h]
  · simp [h]

theorem flCorrected_exact (i : IVec) : flCorrected (exactQuery norm) g.fl i = g.corrected i := by
  unfold flCorrected SDFGrid.corrected
  show Option.map _ (g.get i) = _
  congr 1
  funext v
  by_cases h : 0 ≤ v <;> simp [exactQuery, SDFGrid.fl, h]

theorem corners8_map {F α : Type} (f : Bool → Bool → Bool → Option F) (h : F → F → F → F → F → F → F → F → α) :
    ((corners8 f).map fun v => h (v false false false) (v false false true) (v false true false) (v false true true)
      (v true false false) (v true false true) (v true true false) (v true true true)) =
    (f false false false).bind fun mmm => (f false false true).bind fun mmp => (f false true false).bind fun mpm =>
    (f false true true).bind fun mpp => (f true false false).bind fun pmm => (f true false true).bind fun pmp =>
    (f true true false).bind fun ppm => (f true true true).bind fun ppp => some (h mmm mmp mpm mpp pmm pmp ppm ppp) := by
  unfold corners8
  rcases f false false false with _ | a0
  · rfl
  rcases f false false true with _ | a1
  · rfl
  rcases f false true false with _ | a2
  · rfl
  rcases f false true true with _ | a3
  · rfl
  rcases f true false false with _ | a4
  · rfl
  rcases f true false true with _ | a5
  · rfl
  rcases f true true false with _ | a6
  · rfl
  rcases f true true true with _ | a7 <;> rfl

theorem flInterpolate_exact (loc : Vec4 K) (i : IVec) : flInterpolate (exactQuery norm) g.fl loc i = g.interpolate loc i := by
  have hp : ∀ a, flPair (exactQuery norm) g.fl loc i a =
      axisIndices (i a) (axisCells g.dims a) ((g.pose.applyInv loc).v a - centre g.s i a) := by
    intro a
    exact flAxisIndices_exact _ _ _
  unfold flInterpolate SDFGrid.interpolate
  simp only [flCorrected_exact, hp]
  let X : Fin 3 → ℤ × ℤ := fun a => axisIndices (i a) (axisCells g.dims a) ((g.pose.applyInv loc).v a - centre g.s i a)
  exact corners8_map (fun x y z => g.corrected ![pick (X 0) x, pick (X 1) y, pick (X 2) z])
    (fun mmm mmp mpm mpp pmm pmp ppm ppp => trilinear (centre g.s ![(X 0).1, (X 1).1, (X 2).1])
      (fun a => centre g.s ![(X 0).1, (X 1).1, (X 2).1] a + g.s) mmm mmp mpm mpp pmm pmp ppm ppp (g.pose.applyInv loc).v)

/-- C65: in exact arithmetic the model with open arithmetic is the model that the other properties of queries are about. -/
theorem C65_exact_estimate (loc : Vec4 K) : flEstimate (exactQuery norm) g.fl loc = asAnswer (g.estimate loc) := by
  unfold flEstimate SDFGrid.estimate
  rw [flIndexOf_exact]
  dsimp only
  rw [flInterpolate_exact]
  show (if inGrid g.dims _ then _ else _) = _
  split_ifs
  · rcases g.interpolate loc (g.indexOf loc) with _ | v <;> rfl
  · rfl

theorem flCoarseGrid_exact (i : IVec) (edge : Bool) : flCoarseGrid (exactQuery norm) g.fl i edge = asAnswer (g.coarseGrid i edge) := by
  have hI : ∀ a, flInteriorAxis (exactQuery norm) g.fl i a = g.interiorAxis i a := fun a => rfl
  have hE : ∀ a, flEdgeAxis (exactQuery norm) g.fl i a = g.edgeAxis i a := by
    intro a
    unfold flEdgeAxis SDFGrid.edgeAxis
    dsimp only
    by_cases h : (0 : K) < (((min ((axisCells g.dims a : ℤ) - 1) (i a + 1)) - max 0 (i a - 1) : ℤ) : K) * g.s
    · rw [if_pos h, if_pos (by simpa [exactQuery, SDFGrid.fl] using h)]
      rfl
    · rw [if_neg h, if_neg (by simpa [exactQuery, SDFGrid.fl] using h)]
      rfl
  have h3 : ∀ x y z : Option K, Answer.ofOption (flVec3 x y z) = asAnswer ((vec3 x y z).map some) := by
    intro x y z
    show Answer.ofOption (vec3 x y z) = _
    rcases vec3 x y z with _ | v <;> rfl
  unfold flCoarseGrid SDFGrid.coarseGrid
  simp only [hI, hE, h3]
  have e : g.fl.dims = g.dims := rfl
  rw [e]
  by_cases h1 : inGrid g.dims i = true
  · rw [if_pos h1, if_pos h1]
    by_cases h2 : i 0 > 0 ∧ i 1 > 0 ∧ i 2 > 0 ∧ i 0 < (g.dims.nx : ℤ) - 1 ∧ i 1 < (g.dims.ny : ℤ) - 1 ∧ i 2 < (g.dims.nz : ℤ) - 1
    · simp only [h2, and_self, if_true]
    · simp only [h2, if_false]
      cases edge <;> rfl
  · rw [if_neg h1, if_neg h1]
    rfl

theorem C65_exact_coarse (i : IVec) (edge : Bool) : flCoarse (exactQuery norm) g.fl i edge = asAnswer (g.coarse i edge) := by
  unfold flCoarse SDFGrid.coarse
  rw [flCoarseGrid_exact]
  rcases g.coarseGrid i edge with _ | _ | v
  · rfl
  · rfl
  · show Answer.value _ = asAnswer (gradientQuery _)
    unfold gradientQuery
    rw [if_neg (by simp [Pose.apply])]
    rfl

theorem C65_exact_coarse_at (loc : Vec4 K) (edge : Bool) :
    flCoarseAt (exactQuery norm) g.fl loc edge = asAnswer (g.coarseAt loc edge) := by
  unfold flCoarseAt SDFGrid.coarseAt
  rw [flIndexOf_exact]
  dsimp only
  rw [C65_exact_coarse]
  show (if inGrid g.dims _ then _ else _) = _
  split_ifs <;> rfl

theorem flProjected_exact (p : Vec4 K) : flProjected (exactQuery norm) p = asProjected (projectedPosition p) := by
  unfold flProjected projectedPosition
  by_cases h : p.w = 1 <;> simp [exactQuery, h, asProjected]

theorem flLoop_exact (minDist margin maxStep : K) : ∀ (fuel : ℕ) (loc : Vec4 K) (dist : K),
    flProjectLoop (exactQuery norm) g.fl minDist margin maxStep fuel loc dist =
      (g.projectLoop norm minDist margin maxStep fuel loc dist).map asProjected := by
  intro fuel
  induction fuel with
  | zero =>
    intro loc dist
    unfold flProjectLoop SDFGrid.projectLoop
    by_cases h : dist ≤ minDist
    · rw [if_pos h, if_pos (by simpa [exactQuery] using h)]
      rfl
    · rw [if_neg h, if_neg (by simpa [exactQuery] using h), flProjected_exact]
      rfl
  | succ fuel ih =>
    intro loc dist
    unfold flProjectLoop SDFGrid.projectLoop
    by_cases h : dist ≤ minDist
    · rw [if_pos h, if_pos (by simpa [exactQuery] using h)]
      dsimp only
      rw [C65_exact_coarse_at]
      rcases g.coarseAt loc true with _ | _ | grad
      · rfl
      · rfl
      · show (if _ then _ else _) = Option.map _ (if _ then _ else _)
        by_cases hn : norm grad > g.s * (1 / 4)
        · rw [if_pos hn, if_pos (by simpa [exactQuery, SDFGrid.fl] using hn)]
          have hstep : flMin (exactQuery norm) maxStep (margin - dist) = min maxStep (margin - dist) := by
            unfold flMin
            by_cases hm : margin - dist < maxStep
            · rw [if_pos (by simpa [exactQuery] using hm), min_eq_right hm.le]
            · rw [if_neg (by simpa [exactQuery] using hm), min_eq_left (not_lt.1 hm)]
          have hloc : (⟨fun a => (exactQuery norm).add (loc.v a) ((exactQuery norm).mul ((exactQuery norm).normalized grad a)
              (flMin (exactQuery norm) maxStep ((exactQuery norm).sub margin dist))), (exactQuery norm).add loc.w
              ((exactQuery norm).mul (exactQuery norm).zero (flMin (exactQuery norm) maxStep ((exactQuery norm).sub margin dist)))⟩ : Vec4 K) =
              ⟨fun a => loc.v a + normalized norm grad a * min maxStep (margin - dist), loc.w⟩ := by
            show (⟨fun a => loc.v a + normalized norm grad a * flMin (exactQuery norm) maxStep (margin - dist),
              loc.w + 0 * flMin (exactQuery norm) maxStep (margin - dist)⟩ : Vec4 K) = _
            rw [hstep, zero_mul, add_zero]
          rw [hloc, C65_exact_estimate]
          rcases g.estimate _ with _ | _ | v
          · rfl
          · rfl
          · exact ih _ _
        · rw [if_neg hn, if_neg (by simpa [exactQuery, SDFGrid.fl] using hn)]
          rfl
    · rw [if_neg h, if_neg (by simpa [exactQuery] using h), flProjected_exact]
      rfl

theorem C65_exact_project (fuel : ℕ) (loc : Vec4 K) (minDist mult : K) :
    flProject (exactQuery norm) g.fl fuel loc minDist mult = (g.project norm fuel loc minDist mult).map asProjected := by
  unfold flProject SDFGrid.project
  rw [flIndexOf_exact]
  dsimp only
  rw [C65_exact_estimate]
  show (if inGrid g.dims _ then _ else _) = _
  split_ifs
  · rcases g.estimate loc with _ | _ | v
    · rfl
    · rfl
    · exact flLoop_exact norm g _ _ _ _ _ _
  · rw [flProjected_exact]
    rfl

theorem C65_exact_extrema (fuel : ℕ) : flExtrema (exactQuery norm) g.fl g.s fuel = g.extrema fuel := by
  have h1 : flFlatAt (exactQuery norm) g.fl = g.flatAt := by
    funext i
    unfold flFlatAt SDFGrid.flatAt
    rw [C65_exact_coarse]
    rcases g.coarse i true with _ | _ | v
    · rfl
    · rfl
    · show flFlat _ _ v = effectivelyFlat g.s v
      simp [flFlat, effectivelyFlat, exactQuery, SDFGrid.fl, Bool.and_assoc]
  have h2 : flNextAt (exactQuery norm) g.fl = g.nextAt := by
    funext i
    unfold flNextAt SDFGrid.nextAt
    rw [C65_exact_coarse]
    have hg : g.fl.get i = g.get i := rfl
    rw [hg]
    rcases g.coarse i true with _ | _ | v
    · rfl
    · rfl
    · rcases g.get i with _ | d
      · rfl
      · show flNext _ _ d i v = nextFromGradient g.s d i v
        funext a
        unfold flNext nextFromGradient
        simp [exactQuery, SDFGrid.fl]
  unfold flExtrema SDFGrid.extrema
  rw [h1, h2]
  rfl

end

/-! ### Fields of maps without any boundary (C66) -/

namespace Fl

/-- Not a finite number. -/
def _root_.VGT.Spec.NotFinite (x : Fl) : Prop := ∀ q, x ≠ .fin q

theorem notFinite_add {r : ℚ → Fl} {x y : Fl} (hx : NotFinite x) : NotFinite (addR r x y) := by
  intro q h
  rcases x with _ | _ | a | _
  · cases y <;> cases h
  · cases y <;> cases h
  · exact hx a rfl
  · cases y <;> cases h

theorem notFinite_mul_right {r : ℚ → Fl} {x y : Fl} (hy : NotFinite y) : NotFinite (mulR r x y) := by
  intro q h
  rcases y with _ | _ | a | _
  · cases x <;> cases h
  · cases x <;> simp only [mulR] at h <;> (try split_ifs at h) <;> cases h
  · exact hy a rfl
  · cases x <;> simp only [mulR] at h <;> (try split_ifs at h) <;> cases h

theorem notFinite_mul_left {r : ℚ → Fl} {x y : Fl} (hx : NotFinite x) : NotFinite (mulR r x y) := by
  intro q h
  rcases x with _ | _ | a | _
  · cases y <;> cases h
  · cases y <;> simp only [mulR] at h <;> (try split_ifs at h) <;> cases h
  · exact hx a rfl
  · cases y <;> simp only [mulR] at h <;> (try split_ifs at h) <;> cases h

theorem sub_self_notFinite {r : ℚ → Fl} {x : Fl} (hx : NotFinite x) : subR r x x = .nan := by
  rcases x with _ | _ | a | _
  · rfl
  · rfl
  · exact absurd rfl (hx a)
  · rfl

theorem nan_mul {r : ℚ → Fl} (y : Fl) : mulR r .nan y = .nan := by cases y <;> rfl
theorem mul_nan {r : ℚ → Fl} (y : Fl) : mulR r y .nan = .nan := by cases y <;> rfl
theorem nan_add {r : ℚ → Fl} (y : Fl) : addR r .nan y = .nan := by cases y <;> rfl
theorem add_nan {r : ℚ → Fl} (y : Fl) : addR r y .nan = .nan := by cases y <;> rfl
theorem nan_div {r : ℚ → Fl} (y : Fl) : divR r .nan y = .nan := by cases y <;> rfl
theorem le_nan (y : Fl) : le y .nan = false := by cases y <;> rfl
theorem lt_nan (y : Fl) : lt y .nan = false := by cases y <;> rfl

end Fl

open Fl in
/-- Interpolation between eight equal values that are not finite gives NaN, with the first formula... -/
theorem flTrilinear_nan {r : ℚ → Fl} {bits : ℕ} {lo hi q : Fin 3 → Fl} {x : Fl} (hx : NotFinite x) :
    flTrilinear (ieee r bits) lo hi (fun _ _ _ => x) q = .nan := by
  show addR r (addR r (addR r x (mulR r _ (divR r (subR r x x) _))) _) _ = .nan
  rw [sub_self_notFinite hx, nan_div, mul_nan, add_nan, nan_add, nan_add]

open Fl in
/-- ...and with the second. -/
theorem flBilinear_nan {r : ℚ → Fl} {bits : ℕ} {lo hi q : Fin 3 → Fl} {x : Fl} (hx : NotFinite x) :
    flBilinear (ieee r bits) lo hi (fun _ _ _ => x) q = .nan := by
  have key : ∀ p : Fl, NotFinite p → addR r p (mulR r (mulR r (subR r p p) (divR r (.fin 1) (subR r (hi 2) (lo 2)))) (subR r (q 2) (lo 2))) = .nan := by
    intro p hp
    rw [sub_self_notFinite hp, nan_mul, nan_mul, add_nan]
  refine key _ ?_
  refine notFinite_mul_right (notFinite_add (notFinite_mul_left (notFinite_add (notFinite_mul_right hx))))

/-- The interpolations that give NaN between infinite values of one sign. -/
def Spec.NaNOfEqual (interp : (Fin 3 → Fl) → (Fin 3 → Fl) → (Bool → Bool → Bool → Fl) → (Fin 3 → Fl) → Fl) : Prop :=
  ∀ lo hi q x, (x = .pinf ∨ x = .ninf) → interp lo hi (fun _ _ _ => x) q = .nan

theorem nanOfEqual_trilinear (r : ℚ → Fl) (bits : ℕ) : NaNOfEqual (flTrilinear (ieee r bits)) := by
  rintro lo hi q x (rfl | rfl)
  · exact flTrilinear_nan fun q h => by cases h
  · exact flTrilinear_nan fun q h => by cases h

theorem nanOfEqual_bilinear (r : ℚ → Fl) (bits : ℕ) : NaNOfEqual (flBilinear (ieee r bits)) := by
  rintro lo hi q x (rfl | rfl)
  · exact flBilinear_nan fun q h => by cases h
  · exact flBilinear_nan fun q h => by cases h

/-- Every stored distance is the infinity `x`: the field of a map without a filled cell (`+∞`) or without a free cell
(`-∞`), see C01. -/
def Spec.AllStored (g : FlSDF Fl) (x : Fl) : Prop :=
  (x = .pinf ∨ x = .ninf) ∧ ∀ c, CellInGrid (axisCells g.dims) c → stored g.data c = x

section
variable {r rs : ℚ → Fl} {bits : ℕ} {norm : (Fin 3 → Fl) → Fl}
  {interp : (Fin 3 → Fl) → (Fin 3 → Fl) → (Bool → Bool → Bool → Fl) → (Fin 3 → Fl) → Fl} {g : FlSDF Fl} {x : Fl}

/-- C66: in such a field every estimated distance is NaN, not the infinity that is stored in every cell. -/
theorem C66_estimate_nan (hin : NaNOfEqual interp) {s : ℚ} (hs : g.s = .fin s) (hr : ∃ t, r (s * (1 / 2)) = .fin t)
    (hx : AllStored g x) {loc : Vec4 Fl} {i : Fin 3 → ℤ}
    (hi : ∀ a, (ieeeQuery r rs bits norm interp).toInt ((ieeeQuery r rs bits norm interp).mul (g.toGrid loc a) g.inv) = some (i a))
    (hc : CellInGrid (axisCells g.dims) i) : flEstimate (ieeeQuery r rs bits norm interp) g loc = .value .nan := by
  obtain ⟨-, -, h⟩ := C65_estimate (ieeeQuery r rs bits norm interp) g loc
  obtain ⟨lo, hi', ha, he⟩ := (h i hi).2 hc
  rw [he]
  obtain ⟨t, ht⟩ := hr
  have hcorr : ∀ y z w, towardsBoundary (ieeeQuery r rs bits norm interp) g (stored g.data (corner lo hi' y z w)) = x := by
    intro y z w
    rw [hx.2 _ (corner_in ha y z w)]
    have hm : (ieeeQuery r rs bits norm interp).mul g.s (ieeeQuery r rs bits norm interp).half = .fin t := by
      rw [hs]
      exact ht
    unfold towardsBoundary
    rw [hm]
    rcases hx.1 with rfl | rfl <;> rfl
  simp only [hcorr]
  exact congrArg _ (hin _ _ _ _ hx.1)

/-- C66: in such a field projection returns the given location at once, whatever clearance is asked for - also in the field
of a map that is filled completely, where every location is in collision. -/
theorem C66_projection_returns_start (hin : NaNOfEqual interp) {s : ℚ} (hs : g.s = .fin s)
    (hr : ∃ t, r (s * (1 / 2)) = .fin t) (hx : AllStored g x) {loc : Vec4 Fl} (hw : loc.w = .fin 1) {i : Fin 3 → ℤ}
    (hi : ∀ a, (ieeeQuery r rs bits norm interp).toInt ((ieeeQuery r rs bits norm interp).mul (g.toGrid loc a) g.inv) = some (i a))
    (hc : CellInGrid (axisCells g.dims) i) (fuel : ℕ) (minDist mult : Fl) :
    flProject (ieeeQuery r rs bits norm interp) g fuel loc minDist mult = some (.value loc) := by
  have hproj : flProjected (ieeeQuery r rs bits norm interp) loc = .value loc := by
    unfold flProjected
    rw [if_pos]
    rw [hw]
    rfl
  unfold flProject
  rw [(flIndexOf_some _ _).2 hi]
  dsimp only
  rw [if_pos (inGrid_axis.2 hc), C66_estimate_nan hin hs hr hx hi hc]
  dsimp only
  unfold flProjectLoop
  have hn : ¬ (ieeeQuery r rs bits norm interp).le .nan minDist = true := by
    show ¬ Fl.le .nan minDist = true
    cases minDist <;> simp [Fl.le]
  rw [if_neg hn, hproj]

/-- C66, the part that holds: in the field of an empty map projection returns the given location, which is right.  Missing:
the failure in the field of a completely filled map (`C66_full_map_projection`: the location is returned there too), and
infinite estimates (`C66_estimate_nan`). -/
theorem C66_empty_map_partial (hin : NaNOfEqual interp) {s : ℚ} (hs : g.s = .fin s)
    (hr : ∃ t, r (s * (1 / 2)) = .fin t) (hx : AllStored g .pinf) {loc : Vec4 Fl} (hw : loc.w = .fin 1) {i : Fin 3 → ℤ}
    (hi : ∀ a, (ieeeQuery r rs bits norm interp).toInt ((ieeeQuery r rs bits norm interp).mul (g.toGrid loc a) g.inv) = some (i a))
    (hc : CellInGrid (axisCells g.dims) i) (fuel : ℕ) (minDist mult : Fl) :
    flProject (ieeeQuery r rs bits norm interp) g fuel loc minDist mult = some (.value loc) :=
  C66_projection_returns_start hin hs hr hx hw hi hc fuel minDist mult

/-- C66 fails: in the field of a completely filled map every location of the grid is returned as having the requested
clearance. -/
theorem C66_full_map_projection (hin : NaNOfEqual interp) {s : ℚ} (hs : g.s = .fin s)
    (hr : ∃ t, r (s * (1 / 2)) = .fin t) (hx : AllStored g .ninf) {loc : Vec4 Fl} (hw : loc.w = .fin 1) {i : Fin 3 → ℤ}
    (hi : ∀ a, (ieeeQuery r rs bits norm interp).toInt ((ieeeQuery r rs bits norm interp).mul (g.toGrid loc a) g.inv) = some (i a))
    (hc : CellInGrid (axisCells g.dims) i) (fuel : ℕ) (minDist mult : Fl) :
    flProject (ieeeQuery r rs bits norm interp) g fuel loc minDist mult = some (.value loc) :=
  C66_projection_returns_start hin hs hr hx hw hi hc fuel minDist mult

/-- C66: where a coarse gradient exists in such a field, and the grid has an axis with more than one cell, all its
components are NaN. -/
theorem C66_gradient_nan {R : Fin 3 → Fin 3 → Fl} (hrot : g.rotate = flRotate (ieee r bits) R) {s : ℚ} (hs : g.s = .fin s)
    (h1 : ∃ t, 0 < t ∧ r (1 * s) = .fin t) (h2 : ∃ t, 0 < t ∧ r (2 * s) = .fin t) (ho : r (1 : ℤ) = .fin 1) (ht : r (2 : ℤ) = .fin 2)
    (hx : AllStored g x) (hd : ∃ a, 1 < axisCells g.dims a) {i : Fin 3 → ℤ} {edge : Bool} {v : Fin 3 → Fl}
    (hv : flCoarse (ieeeQuery r rs bits norm interp) g i edge = .value v) : ∀ a, v a = .nan := by
  set A := ieeeQuery r rs bits norm interp with hA
  have hnf : NotFinite x := by rcases hx.1 with rfl | rfl <;> intro q h <;> cases h
  have rot : ∀ (w : Fin 3 → Fl) (b : Fin 3), w b = .nan → ∀ a, g.rotate w a = .nan := by
    intro w b hb a
    rw [hrot]
    show Fl.addR r (Fl.addR r (Fl.mulR r _ (w 0)) (Fl.mulR r _ (w 1))) (Fl.mulR r _ (w 2)) = .nan
    fin_cases b
    · have hb : w 0 = .nan := hb
      rw [hb, Fl.mul_nan, Fl.nan_add, Fl.nan_add]
    · have hb : w 1 = .nan := hb
      rw [hb, Fl.mul_nan, Fl.add_nan, Fl.nan_add]
    · have hb : w 2 = .nan := hb
      rw [hb, Fl.mul_nan, Fl.add_nan]
  have vec : ∀ {x y z : Fl} (b : Fin 3), (![x, y, z] : Fin 3 → Fl) b = .nan → ∀ a, g.rotate ![x, y, z] a = .nan :=
    fun b hb => rot _ b hb
  by_cases hi : CellInGrid (axisCells g.dims) i
  swap
  · rw [(C65_coarse A g i edge).2 fun h => hi h.1] at hv
    cases hv
  have hi' := inGrid_axis.2 hi
  obtain ⟨b, hb⟩ := hd
  unfold flCoarse flCoarseGrid at hv
  rw [if_pos hi'] at hv
  split_ifs at hv with hne he
  · rw [flInterior_some A g hi hne.1 hne.2.2.2.1, flInterior_some A g hi hne.2.1 hne.2.2.2.2.1,
      flInterior_some A g hi hne.2.2.1 hne.2.2.2.2.2] at hv
    cases hv
    refine vec 0 ?_
    have e1 : CellInGrid (axisCells g.dims) (moveTo i 0 (i 0 + 1)) := by
      refine inGrid_axis.1 (moveTo_inGrid hi' ?_ ?_)
      · omega
      · show i 0 + 1 < (g.dims.nx : ℤ)
        omega
    have e2 : CellInGrid (axisCells g.dims) (moveTo i 0 (i 0 - 1)) := by
      refine inGrid_axis.1 (moveTo_inGrid hi' ?_ ?_)
      · omega
      · show i 0 - 1 < (g.dims.nx : ℤ)
        have := hi 0
        have : i 0 < (g.dims.nx : ℤ) := this.2
        omega
    show Fl.mulR r (Fl.subR rs (stored g.data (moveTo i 0 (i 0 + 1))) (stored g.data (moveTo i 0 (i 0 - 1)))) _ = .nan
    rw [hx.2 _ e1, hx.2 _ e2, Fl.sub_self_notFinite hnf, Fl.nan_mul]
  · rw [flEdge_some A g hi, flEdge_some A g hi, flEdge_some A g hi] at hv
    cases hv
    refine vec b ?_
    have hib := hi b
    have hinc : nearHigh (axisCells g.dims b) (i b) - nearLow (i b) = 1 ∨ nearHigh (axisCells g.dims b) (i b) - nearLow (i b) = 2 := by
      unfold nearHigh nearLow
      omega
    have hpos : A.lt A.zero (A.mul (A.ofInt (nearHigh (axisCells g.dims b) (i b) - nearLow (i b))) g.s) = true := by
      rcases hinc with h | h
      · rw [h, hs]
        obtain ⟨t, ht0, ht1⟩ := h1
        show Fl.lt (.fin 0) (Fl.mulR r (r ((1 : ℤ) : ℚ)) (.fin s)) = true
        rw [ho]
        show Fl.lt (.fin 0) (r (1 * s)) = true
        rw [ht1]
        exact decide_eq_true ht0
      · rw [h, hs]
        obtain ⟨t, ht0, ht1⟩ := h2
        show Fl.lt (.fin 0) (Fl.mulR r (r ((2 : ℤ) : ℚ)) (.fin s)) = true
        rw [ht]
        show Fl.lt (.fin 0) (r (2 * s)) = true
        rw [ht1]
        exact decide_eq_true ht0
    have e1 : CellInGrid (axisCells g.dims) (moveTo i b (nearHigh (axisCells g.dims b) (i b))) :=
      inGrid_axis.1 (moveTo_inGrid hi' (by unfold nearHigh; omega) (by unfold nearHigh; omega))
    have e2 : CellInGrid (axisCells g.dims) (moveTo i b (nearLow (i b))) :=
      inGrid_axis.1 (moveTo_inGrid hi' (by unfold nearLow; omega) (by unfold nearLow; omega))
    have comp : (if A.lt A.zero (A.mul (A.ofInt (nearHigh (axisCells g.dims b) (i b) - nearLow (i b))) g.s) then
        A.mul (A.sub (stored g.data (moveTo i b (nearHigh (axisCells g.dims b) (i b))))
          (stored g.data (moveTo i b (nearLow (i b)))))
          (A.div A.one (A.mul (A.ofInt (nearHigh (axisCells g.dims b) (i b) - nearLow (i b))) g.s))
      else A.zero) = .nan := by
      rw [if_pos hpos, hx.2 _ e1, hx.2 _ e2]
      show Fl.mulR r (Fl.subR r x x) _ = .nan
      rw [Fl.sub_self_notFinite hnf, Fl.nan_mul]
    fin_cases b <;> exact comp

/-- C66: in such a field every cell is recorded as its own local extremum. -/
theorem C66_every_cell_an_extremum {R : Fin 3 → Fin 3 → Fl} (hrot : g.rotate = flRotate (ieee r bits) R) {s : ℚ}
    (hs : g.s = .fin s) (h1 : ∃ t, 0 < t ∧ r (1 * s) = .fin t) (h2 : ∃ t, 0 < t ∧ r (2 * s) = .fin t)
    (ho : r (1 : ℤ) = .fin 1) (ht : r (2 : ℤ) = .fin 2) (hx : AllStored g x) (hd : ∃ a, 1 < axisCells g.dims a) {fuel : ℕ}
    (hfuel : g.dims.nx * (g.dims.ny * g.dims.nz) ≤ fuel) :
    ∃ m, flExtrema (ieeeQuery r rs bits norm interp) g s fuel = some m ∧
      ∀ c, CellInGrid (axisCells g.dims) c → m c = some (.at (cellCentre s c)) := by
  obtain ⟨m, hm, -, hall⟩ := C65_extrema (ieeeQuery r rs bits norm interp) g s hfuel
  refine ⟨m, hm, fun c hc => ?_⟩
  have key : ∀ i, CellInGrid (axisCells g.dims) i → flFlatAt (ieeeQuery r rs bits norm interp) g i = false ∧
      flNextAt (ieeeQuery r rs bits norm interp) g i = i := by
    intro i hi
    obtain ⟨v, hv⟩ := (C65_coarse (ieeeQuery r rs bits norm interp) g i true).1 ⟨hi, .inl rfl⟩
    have hn := C66_gradient_nan hrot hs h1 h2 ho ht hx hd hv
    constructor
    · unfold flFlatAt
      rw [hv]
      dsimp only
      unfold flFlat
      rw [hn 0]
      have : (ieeeQuery r rs bits norm interp).le ((ieeeQuery r rs bits norm interp).abs .nan)
          ((ieeeQuery r rs bits norm interp).mul g.s (ieeeQuery r rs bits norm interp).flatFactor) = false := rfl
      rw [this]
      rfl
    · unfold flNextAt
      rw [hv, FlSDF.get_in hi]
      dsimp only
      funext a
      unfold flNext
      dsimp only
      rw [hn a]
      have hw : (if (ieeeQuery r rs bits norm interp).lt (stored g.data i) (ieeeQuery r rs bits norm interp).zero = true then
          (ieeeQuery r rs bits norm interp).mul .nan ((ieeeQuery r rs bits norm interp).neg (ieeeQuery r rs bits norm interp).one)
          else Fl.nan) = .nan := by
        split_ifs
        · rfl
        · rfl
      rw [hw, if_neg, if_neg]
      · exact fun h => Bool.false_ne_true h
      · exact fun h => Bool.false_ne_true ((Fl.lt_nan _).symm.trans h)
  have stay : ∀ e, LeadsTo (CellInGrid (axisCells g.dims)) (fun i => flFlatAt (ieeeQuery r rs bits norm interp) g i = true)
      (flNextAt (ieeeQuery r rs bits norm interp) g) c e → e = c := by
    intro e he
    induction he with
    | refl => rfl
    | tail _ hstep ih =>
      obtain ⟨hin, -, hnext⟩ := hstep
      rw [← hnext, (key _ hin).2, ih]
  rcases hall c hc with ⟨-, e, he, hne⟩ | ⟨e, he, hends⟩
  · exact absurd (stay e he ▸ hc) hne
  · rw [he, stay e hends.1]

end

/-! ### Example -/

/-- Two cells, both inside an obstacle without end. -/
def fullMap : FlSDF Fl := ⟨⟨2, 1, 1⟩, .fin 1, .fin 1, fun _ => .ninf, fun x => x.v, fun p => p,
  flRotate (ieee Fl.fin 64) fun a b => if a = b then .fin 1 else .fin 0⟩

/-- The location in the first of them. -/
def inObstacle : Vec4 Fl := ⟨![.fin (1 / 2), .fin (1 / 2), .fin (1 / 2)], .fin 1⟩

theorem fullMap_stored : AllStored fullMap .ninf := ⟨.inr rfl, fun _ _ => rfl⟩

/-- A location inside the obstacle comes back as if it had the requested clearance, with either formula of interpolation. -/
example (fuel : ℕ) :
    flProject (ieeeQuery Fl.fin Fl.fin 64 (fun v => Fl.absF (v 0)) (flTrilinear (ieee Fl.fin 64))) fullMap fuel inObstacle (.fin 0) (.fin 1) =
      some (.value inObstacle) :=
  C66_projection_returns_start (i := ![0, 0, 0]) (nanOfEqual_trilinear _ _) (s := 1) rfl ⟨_, rfl⟩ fullMap_stored rfl
    (by decide +kernel) (by unfold CellInGrid; decide) fuel _ _

example (fuel : ℕ) :
    flProject (ieeeQuery Fl.fin Fl.fin 64 (fun v => Fl.absF (v 0)) (flBilinear (ieee Fl.fin 64))) fullMap fuel inObstacle (.fin 0) (.fin 1) =
      some (.value inObstacle) :=
  C66_projection_returns_start (i := ![0, 0, 0]) (nanOfEqual_bilinear _ _) (s := 1) rfl ⟨_, rfl⟩ fullMap_stored rfl
    (by decide +kernel) (by unfold CellInGrid; decide) fuel _ _

example : ∃ m, flExtrema (ieeeQuery Fl.fin Fl.fin 64 (fun v => Fl.absF (v 0)) (flTrilinear (ieee Fl.fin 64))) fullMap 1 2 = some m ∧
    ∀ c, CellInGrid (axisCells fullMap.dims) c → m c = some (.at (cellCentre (1 : ℚ) c)) :=
  C66_every_cell_an_extremum (R := fun a b => if a = b then .fin 1 else .fin 0) rfl (s := 1) rfl ⟨1, one_pos, by decide +kernel⟩
    ⟨2, two_pos, by decide +kernel⟩ (by decide +kernel) (by decide +kernel) fullMap_stored ⟨0, by decide⟩ (by decide)

/-- The projection in `C65_project` with finite distances: three cells, an obstacle with an unlimited backside on the left. -/
def halfFull : FlSDF Fl := ⟨⟨4, 1, 1⟩, .fin 1, .fin 1,
  fun i => if i.1 = 0 then .fin (-2) else if i.1 = 1 then .fin (-1) else if i.1 = 2 then .fin 1 else .fin 2, fun x => x.v, fun p => p, fun v => v⟩

def showQuery : QueryArith Fl := ieeeQuery Fl.fin Fl.fin 64 (fun v => Fl.absF (v 0)) (flTrilinear (ieee Fl.fin 64))

def wAnswer : Option (Answer (Vec4 Fl)) → Option Fl
  | some (.value p) => some (p.v 0)
  | _ => none

example : wAnswer (flProject showQuery halfFull 9 ⟨![.fin (7 / 4), .fin (1 / 2), .fin (1 / 2)], .fin 1⟩ (.fin (1 / 4)) (.fin 1)) =
    some (.fin (2251 / 1000)) := by decide +kernel

/-- A fine gradient with a window of a whole cell: both neighbours on the axis with one cell are outside, the call throws. -/
example : flFine showQuery halfFull ![.fin (3 / 2), .fin (1 / 2), .fin (1 / 2)] (.fin 1) = .throws :=
  (C65_fine showQuery halfFull (i := ![1, 0, 0]) (m := ![![0, 0, 0], ![1, -1, 0], ![1, 0, -1]])
    (q := ![![2, 0, 0], ![1, 1, 0], ![1, 0, 1]]) (by decide +kernel) (by decide +kernel) (by decide +kernel)).2.2
    (by unfold CellInGrid; decide) ⟨1, by unfold CellInGrid; decide, by unfold CellInGrid; decide⟩

end VGT
