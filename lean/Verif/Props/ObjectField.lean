import Verif.Props.Machine
import Verif.Props.MapSDF

/-!
C82: what the fields of chosen objects, and the field of free space and named objects, say about the space around a location.
-/
set_option autoImplicit false

namespace VGT
open VGT.EDT VGT.Spec

section
variable {C : Type} {occ : C → Fl} {obj : C → Nat} {ro : Rounding} {m : CellMap C} {p : GenParams} {ids : List Nat}

/-! ### Fields of chosen objects -/

/-- A field of finite values that `ExtractSignedDistanceField` of a tagged map returned. -/
structure FieldOfObjects (occ : C → Fl) (obj : C → Nat) (ro : Rounding) (m : CellMap C) (p : GenParams) (ids : List Nat)
    (g : SDFGrid ℝ) : Prop where
  pose : Orthogonal g.pose.R
  ok : GenOK ro m.info
  dims : m.info.dims = g.dims
  edge : m.info.sx = g.s
  run : ∃ out, ExtractTagged occ obj ro m p ids (some out) ∧ ∀ i, g.dims.In i → out i = .fin (g.data i)

/-- The cells the field is about. -/
def Spec.Chosen (occ : C → Fl) (obj : C → Nat) (m : CellMap C) (p : GenParams) (ids : List Nat) (i : Idx) : Prop :=
  (ids = [] ∨ obj (m.data i) ∈ ids) ∧ Obstacle p.unknownIsFilled (occ (m.data i))

theorem FieldOfObjects.generated {g : SDFGrid ℝ} (h : FieldOfObjects occ obj ro m p ids g) :
    GeneratedBy ro (fun i => (ids.contains (obj (m.data i)) || ids.length == 0) && occFilled p (occ (m.data i))) p.addBorder g := by
  obtain ⟨out, hrun, hout⟩ := h.run
  exact ⟨h.pose, m.info, _, _, out, h.ok, h.dims, h.edge, fun i hi => isFilledTagged_toZ occ obj m ids p hi, hrun,
    fun i hi => hout i (h.dims ▸ hi)⟩

theorem chosen_iff (i : Idx) :
    ((ids.contains (obj (m.data i)) || ids.length == 0) && occFilled p (occ (m.data i))) = true ↔ Chosen occ obj m p ids i := by
  unfold Chosen
  rw [Bool.and_eq_true, occFilled_iff, Bool.or_eq_true, List.contains_iff_mem, beq_iff_eq, List.length_eq_zero_iff, or_comm]

variable {g : SDFGrid ℝ} {N : ℝ} {norm : (Fin 3 → ℝ) → ℝ}
  {interp : (Fin 3 → ℝ) → (Fin 3 → ℝ) → (Bool → Bool → Bool → ℝ) → (Fin 3 → ℝ) → ℝ}
  {toGrid : Vec4 ℝ → Fin 3 → ℝ} {toWorld rotate : (Fin 3 → ℝ) → Fin 3 → ℝ}

/-- C82. The field of chosen objects, stored in `float`: the computed distance is clearance from the obstacle cells of these objects, the
computed depth is distance from every other cell. -/
theorem C82_objects_float (hg : FieldOfObjects occ obj floatSDF m p ids g) (hs : (2 : ℝ) ^ (-100 : ℤ) ≤ g.s) (hs' : g.s ≤ 2 ^ (100 : ℤ))
    (h1 : 1 ≤ N) (hN43 : N ≤ 2 ^ 43) (hN : ∀ a, (axisCells g.dims a : ℝ) ≤ N) (hint : DoubleInterpolation interp)
    {loc : Vec4 ℝ} {e' : ℝ} (he' : flEstimate (roundedQuery roundDouble norm interp)
      (g.computed (roundDouble (1 / g.s)) toGrid toWorld rotate) loc = .value e')
    {q q' : Fin 3 → ℝ} (hfr : InFrame g.pose.R g.pose.t (toGrid loc) q)
    {o : Fin 3 → ℤ} (ho : CellInGrid (axisCells g.dims) o) {x y : Vec ℝ} (hxy : InFrame g.pose.R g.pose.t x y)
    (hx : InClosedCell g.s o x) :
    (Chosen occ obj m p ids (cellIdx o) →
      e' - (Real.sqrt 3 + 3 + N / 2 ^ 18 + N ^ 2 / 2 ^ 37) * g.s - dist3 q q' ≤ dist3 q' y) ∧
    (¬ Chosen occ obj m p ids (cellIdx o) →
      -e' - (Real.sqrt 3 + 3 + N / 2 ^ 18 + N ^ 2 / 2 ^ 37) * g.s - dist3 q q' ≤ dist3 q' y) := by
  have h := C68_clear_ball_float (p' := q') hg.generated hs hs' h1 hN43 hN hint he' hfr ho hxy hx
  rw [← chosen_iff, Bool.not_eq_true]
  exact h

/-- C82, stored in `double`. -/
theorem C82_objects_double (hg : FieldOfObjects occ obj doubleSDF m p ids g) (hs : (2 : ℝ) ^ (-100 : ℤ) ≤ g.s)
    (hs' : g.s ≤ 2 ^ (100 : ℤ)) (h1 : 1 ≤ N) (hN43 : N ≤ 2 ^ 43) (hN : ∀ a, (axisCells g.dims a : ℝ) ≤ N)
    (hint : DoubleInterpolation interp) {loc : Vec4 ℝ} {e' : ℝ} (he' : flEstimate (roundedQuery roundDouble norm interp)
      (g.computed (roundDouble (1 / g.s)) toGrid toWorld rotate) loc = .value e')
    {q q' : Fin 3 → ℝ} (hfr : InFrame g.pose.R g.pose.t (toGrid loc) q)
    {o : Fin 3 → ℤ} (ho : CellInGrid (axisCells g.dims) o) {x y : Vec ℝ} (hxy : InFrame g.pose.R g.pose.t x y)
    (hx : InClosedCell g.s o x) :
    (Chosen occ obj m p ids (cellIdx o) →
      e' - (Real.sqrt 3 + 3 + N / 2 ^ 44 + N ^ 2 / 2 ^ 37) * g.s - dist3 q q' ≤ dist3 q' y) ∧
    (¬ Chosen occ obj m p ids (cellIdx o) →
      -e' - (Real.sqrt 3 + 3 + N / 2 ^ 44 + N ^ 2 / 2 ^ 37) * g.s - dist3 q q' ≤ dist3 q' y) := by
  have h := C68_clear_ball_double (p' := q') hg.generated hs hs' h1 hN43 hN hint he' hfr ho hxy hx
  rw [← chosen_iff, Bool.not_eq_true]
  exact h

/-! ### All objects together -/

theorem sqDistZ_le {A : Set ZIdx} {q z : ZIdx} (h : z ∈ A) : sqDistZ A q ≤ ((sqz q z : ℕ) : ℕ∞) := iInf₂_le z h

theorem cellsOf_mono {d : Dims} {border : Bool} {P Q : Idx → Prop} (h : ∀ i, d.In i → P i → Q i) :
    cellsOf d border P ⊆ cellsOf d border Q := by
  rintro z (⟨i, hi, hp, e⟩ | hz)
  · exact .inl ⟨i, hi, h i hi hp, e⟩
  · exact .inr hz

/-- C82. Away from obstacles, the distance to the nearest obstacle is the least of the distances to the objects, if every obstacle belongs to
an object: no per-object distance is smaller, and one is equal. Every rounding. -/
theorem C82_least_object_distance (hok : GenOK ro m.info) {whole : Idx → Rl} (hw : ExtractTagged occ obj ro m p [] (some whole))
    {sdfs : Nat → Option (Idx → Rl)} (hall : MakeAll occ obj ro m p (some sdfs))
    (hnamed : ∀ j, m.info.dims.In j → Obstacle p.unknownIsFilled (occ (m.data j)) → obj (m.data j) ≠ 0)
    (hsome : ∃ j, m.info.dims.In j ∧ Obstacle p.unknownIsFilled (occ (m.data j)))
    {i : Idx} (hi : m.info.dims.In i) (hfree : ¬ Obstacle p.unknownIsFilled (occ (m.data i))) :
    (∀ k v, sdfs k = some v → Rl.le (whole i) (v i)) ∧ ∃ k v, sdfs k = some v ∧ v i = whole i := by
  obtain ⟨_, e, -, hW⟩ := C08_extract_tagged hok hw
  cases e
  obtain ⟨_, e, hkeys, hV⟩ := C09_all_object_sdfs hok hall
  cases e
  have w := (hW i hi).1 (fun h => hfree h.2)
  have hsub : ∀ k, cellsOf m.info.dims p.addBorder (fun j => obj (m.data j) = k ∧ Obstacle p.unknownIsFilled (occ (m.data j))) ⊆
      cellsOf m.info.dims p.addBorder (fun j => (([] : List Nat) = [] ∨ obj (m.data j) ∈ ([] : List Nat)) ∧
        Obstacle p.unknownIsFilled (occ (m.data j))) := fun k => cellsOf_mono fun j _ h => ⟨.inl rfl, h.2⟩
  have hv : ∀ k v, sdfs k = some v → v i = scaled ro.rr ro.cast m.info.sx (sqDistZ (cellsOf m.info.dims p.addBorder
      (fun j => obj (m.data j) = k ∧ Obstacle p.unknownIsFilled (occ (m.data j)))) ((i.1 : ℤ), (i.2.1 : ℤ), (i.2.2 : ℤ))) :=
    fun k v hk => (hV k v hk i hi).1 (fun h => hfree h.2)
  refine ⟨fun k v hk => ?_, ?_⟩
  · rw [w, hv k v hk]
    exact scaled_le hok.rr hok.rc hok.res (sqDistZ_anti (hsub k) _)
  · obtain ⟨j, hj, hjo⟩ := hsome
    have key : ∃ k, k ≠ 0 ∧ (∃ j, m.info.dims.In j ∧ obj (m.data j) = k) ∧
        sqDistZ (cellsOf m.info.dims p.addBorder
          (fun j => obj (m.data j) = k ∧ Obstacle p.unknownIsFilled (occ (m.data j)))) ((i.1 : ℤ), (i.2.1 : ℤ), (i.2.2 : ℤ)) ≤
        sqDistZ (cellsOf m.info.dims p.addBorder (fun j => (([] : List Nat) = [] ∨ obj (m.data j) ∈ ([] : List Nat)) ∧
          Obstacle p.unknownIsFilled (occ (m.data j)))) ((i.1 : ℤ), (i.2.1 : ℤ), (i.2.2 : ℤ)) := by
      cases hD : sqDistZ (cellsOf m.info.dims p.addBorder (fun j => (([] : List Nat) = [] ∨ obj (m.data j) ∈ ([] : List Nat)) ∧
          Obstacle p.unknownIsFilled (occ (m.data j)))) ((i.1 : ℤ), (i.2.1 : ℤ), (i.2.2 : ℤ)) using ENat.recTopCoe with
      | top => exact ⟨_, hnamed j hj hjo, ⟨j, hj, rfl⟩, le_top⟩
      | coe n =>
        obtain ⟨⟨z, hz, hn⟩, -⟩ := sqDistZ_coe.1 hD
        rw [← hn]
        rcases hz with ⟨o, ho, hob, rfl⟩ | hz
        · exact ⟨_, hnamed o ho hob.2, ⟨o, ho, rfl⟩, sqDistZ_le (.inl ⟨o, ho, ⟨rfl, hob.2⟩, rfl⟩)⟩
        · exact ⟨_, hnamed j hj hjo, ⟨j, hj, rfl⟩, sqDistZ_le (.inr hz)⟩
    obtain ⟨k, hk0, hk, hle⟩ := key
    obtain ⟨v, hkv⟩ := Option.isSome_iff_exists.1 ((hkeys k).2 ⟨hk0, hk⟩)
    refine ⟨k, v, hkv, ?_⟩
    rw [w, hv k v hkv, le_antisymm hle (sqDistZ_anti (hsub k) _)]

/-- C82. Without that condition the objects do not tell: if an obstacle that belongs to no object is nearer than every object, every
per-object distance is larger than the distance to the nearest obstacle (exact arithmetic, no virtual border). -/
theorem C82_unnamed_obstacle_missed (hok : GenOK ro m.info) (hr : ro.rr = id) (hc : ro.cast = id) (hb : p.addBorder = false)
    {whole : Idx → Rl} (hw : ExtractTagged occ obj ro m p [] (some whole))
    {sdfs : Nat → Option (Idx → Rl)} (hall : MakeAll occ obj ro m p (some sdfs))
    {i j : Idx} (hi : m.info.dims.In i) (hfree : ¬ Obstacle p.unknownIsFilled (occ (m.data i)))
    (hj : m.info.dims.In j) (hjo : Obstacle p.unknownIsFilled (occ (m.data j)))
    (hnear : ∀ o, m.info.dims.In o → Obstacle p.unknownIsFilled (occ (m.data o)) → obj (m.data o) ≠ 0 → sq3 i j < sq3 i o) :
    ∀ k v, sdfs k = some v → Rl.le (whole i) (v i) ∧ v i ≠ whole i := by
  obtain ⟨_, e, -, hW⟩ := C08_extract_tagged hok hw
  cases e
  obtain ⟨_, e, hkeys, hV⟩ := C09_all_object_sdfs hok hall
  cases e
  have w := (hW i hi).1 (fun h => hfree h.2)
  intro k v hk
  have hv := (hV k v hk i hi).1 (fun h => hfree h.2)
  have hk0 : k ≠ 0 := ((hkeys k).1 (Option.isSome_iff_exists.2 ⟨v, hk⟩)).1
  rw [hr, hc] at w hv
  have hwn : sqDistZ (cellsOf m.info.dims p.addBorder (fun j => (([] : List Nat) = [] ∨ obj (m.data j) ∈ ([] : List Nat)) ∧
      Obstacle p.unknownIsFilled (occ (m.data j)))) ((i.1 : ℤ), (i.2.1 : ℤ), (i.2.2 : ℤ)) ≤ ((sq3 i j : ℕ) : ℕ∞) := by
    rw [sq3_toZ]
    exact sqDistZ_le (.inl ⟨j, hj, ⟨.inl rfl, hjo⟩, rfl⟩)
  have hvn : ((sq3 i j + 1 : ℕ) : ℕ∞) ≤ sqDistZ (cellsOf m.info.dims p.addBorder
      (fun j => obj (m.data j) = k ∧ Obstacle p.unknownIsFilled (occ (m.data j)))) ((i.1 : ℤ), (i.2.1 : ℤ), (i.2.2 : ℤ)) := by
    refine le_iInf₂ fun z hz => ?_
    rcases hz with ⟨o, ho, hob, rfl⟩ | ⟨hz, -⟩
    · have := hnear o ho hob.2 (hob.1 ▸ hk0)
      rw [sq3_toZ i o] at this
      exact_mod_cast this
    · rw [hb] at hz; cases hz
  obtain ⟨n, hn⟩ := ENat.ne_top_iff_exists.1 (ne_top_of_le_ne_top (ENat.natCast_ne_top _) hwn)
  rw [← hn] at w hwn
  have hn1 : n ≤ sq3 i j := by exact_mod_cast hwn
  have hs := hok.res
  generalize sqDistZ (cellsOf m.info.dims p.addBorder
      (fun j => obj (m.data j) = k ∧ Obstacle p.unknownIsFilled (occ (m.data j)))) ((i.1 : ℤ), (i.2.1 : ℤ), (i.2.2 : ℤ)) = D at hv hvn
  rw [w, hv]
  cases D using ENat.recTopCoe with
  | top => exact ⟨by simp [scaled_top, scaled_coe, Rl.le], by simp [scaled_top, scaled_coe]⟩
  | coe k =>
    have hk1 : n < k := by
      have : sq3 i j + 1 ≤ k := by exact_mod_cast hvn
      omega
    have hlt : Real.sqrt n * m.info.sx < Real.sqrt k * m.info.sx :=
      mul_lt_mul_of_pos_right (Real.sqrt_lt_sqrt (by positivity) (by exact_mod_cast hk1)) hs
    simp only [scaled_coe, id, Rl.le]
    exact ⟨hlt.le, fun h => absurd (Rl.fin.inj h) hlt.ne'⟩

end

/-! ### Concrete cases -/

/-- Every map with a cell of a chosen object and a cell that is not one has such a field, at any pose. -/
theorem fieldOfObjects_exists {C : Type} {occ : C → Fl} {obj : C → Nat} {ro : Rounding} {m : CellMap C} {p : GenParams} {ids : List Nat}
    (hok : GenOK ro m.info) {P : Pose ℝ} (hP : Orthogonal P.R) {i j : Idx} (hi : m.info.dims.In i) (fi : ¬ Chosen occ obj m p ids i)
    (hj : m.info.dims.In j) (fj : Chosen occ obj m p ids j) :
    ∃ g : SDFGrid ℝ, FieldOfObjects occ obj ro m p ids g ∧ g.dims = m.info.dims ∧ g.s = m.info.sx ∧ g.pose = P := by
  obtain ⟨r, hr⟩ := gridRuns_exists hok (isFilledTagged occ obj m ids p) p.addBorder p.oob
  rw [← chosen_iff] at fi fj
  obtain ⟨out, data, rfl, h⟩ := finite_run hok (fun i hi => isFilledTagged_toZ occ obj m ids p hi) hi (by simpa using fi) hj fj hr
  exact ⟨⟨m.info.dims, m.info.sx, P, data⟩, ⟨hP, hok, rfl, rfl, out, hr, h⟩, rfl, rfl, rfl⟩

/-- A row of 64 cells of edge 1: the first is of object 1, the last of object 2. -/
noncomputable def exObjects : CellMap (Fl × Nat) where
  info := ⟨⟨64, 1, 1⟩, 1, 1, 1⟩
  data i := if i.1 = 0 then (.fin 1, 1) else if i.1 = 63 then (.fin 1, 2) else (.fin 0, 0)

theorem exObjects_obstacle (i : Idx) : Obstacle false (exObjects.data i).1 ↔ i.1 = 0 ∨ i.1 = 63 := by
  unfold exObjects Obstacle
  dsimp only
  split_ifs with h1 h2 <;> simp [*, AboveHalf] <;> norm_num

theorem exObjects_chosen (i : Idx) : Chosen Prod.fst Prod.snd exObjects ⟨.fin 0, false, false⟩ [1] i ↔ i.1 = 0 := by
  unfold Chosen
  rw [exObjects_obstacle]
  unfold exObjects
  dsimp only
  split_ifs with h1 h2 <;> simp [*]

/-- The field of object 1 in that row: at `(40.5, 0.5, 0.5)` the estimate is more than 37, although object 2 is nearer, and the theorem
gives a ball of radius 32 clear of object 1. -/
example : ∃ g : SDFGrid ℝ, FieldOfObjects Prod.fst Prod.snd floatSDF exObjects ⟨.fin 0, false, false⟩ [1] g ∧ g.s = 1 ∧
    (∀ a, (axisCells g.dims a : ℝ) ≤ 64) ∧
    (∃ e', flEstimate (roundedQuery roundDouble (fun _ => 0) (flTrilinear (roundedArith roundDouble)))
      (g.computed (roundDouble (1 / g.s)) (fun l => l.v) id id) (point4 ![81 / 2, 1 / 2, 1 / 2]) = .value e' ∧ 37 < e') ∧
    ∀ y, InClosedCell 1 ![0, 0, 0] y → 32 ≤ dist3 ![81 / 2, 1 / 2, 1 / 2] y := by
  obtain ⟨g, hg, hd, hs, hP⟩ := fieldOfObjects_exists (m := exObjects) exRow_ok (P := ⟨fun i j => if i = j then 1 else 0, fun _ => 0⟩)
    (by constructor <;> intro a b <;> fin_cases a <;> fin_cases b <;> simp) (ids := [1]) (p := ⟨.fin 0, false, false⟩)
    (i := (63, 0, 0)) (by decide) (by rw [exObjects_chosen]; decide) (j := (0, 0, 0)) (by decide) (by rw [exObjects_chosen])
  change g.dims = ⟨64, 1, 1⟩ at hd
  change g.s = 1 at hs
  have hframe : ∀ x : Fin 3 → ℝ, InFrame g.pose.R g.pose.t x x := by
    rw [hP]; intro x a; fin_cases a <;> simp
  have hN : ∀ a, (axisCells g.dims a : ℝ) ≤ 64 := by
    rw [hd]; intro a; fin_cases a <;> simp [axisCells]
  have hG := hg.generated
  rw [show (fun i => ([1].contains (Prod.snd (exObjects.data i)) || [1].length == 0) && occFilled ⟨.fin 0, false, false⟩ (exObjects.data i).1) =
    fun i : Idx => decide (i.1 = 0) from funext fun i => by
      rw [Bool.eq_iff_iff, decide_eq_true_eq, ← exObjects_chosen]; exact chosen_iff i] at hG
  obtain ⟨e', he', hlow⟩ := row_estimate_float hG hd hs
  refine ⟨g, hg, hs, hN, ⟨e', he', hlow⟩, fun y hy => ?_⟩
  have := (C82_objects_float hg (by rw [hs]; norm_num) (by rw [hs]; norm_num) (N := 64) (by norm_num) (by norm_num) hN (.inl rfl) he'
    (hframe _) (q' := ![81 / 2, 1 / 2, 1 / 2]) (o := ![0, 0, 0]) (by rw [hd]; intro a; fin_cases a <;> simp [axisCells]) (hframe y)
    (by rw [hs]; exact hy)).1 ((exObjects_chosen _).2 (by decide))
  have h3 : Real.sqrt 3 ≤ 19 / 10 := by rw [Real.sqrt_le_left (by norm_num)]; norm_num
  have h0 : dist3 (point4 (![81 / 2, 1 / 2, 1 / 2] : Fin 3 → ℝ)).v ![81 / 2, 1 / 2, 1 / 2] = 0 := by
    unfold dist3 point4; simp
  rw [h0, hs] at this
  norm_num at this
  linarith

/-- The same in `double`. -/
example : ∃ g : SDFGrid ℝ, FieldOfObjects Prod.fst Prod.snd doubleSDF exObjects ⟨.fin 0, false, false⟩ [1] g ∧ g.s = 1 ∧
    (∀ a, (axisCells g.dims a : ℝ) ≤ 64) ∧
    (∃ e', flEstimate (roundedQuery roundDouble (fun _ => 0) (flTrilinear (roundedArith roundDouble)))
      (g.computed (roundDouble (1 / g.s)) (fun l => l.v) id id) (point4 ![81 / 2, 1 / 2, 1 / 2]) = .value e' ∧ 37 < e') ∧
    ∀ y, InClosedCell 1 ![0, 0, 0] y → 32 ≤ dist3 ![81 / 2, 1 / 2, 1 / 2] y := by
  obtain ⟨g, hg, hd, hs, hP⟩ := fieldOfObjects_exists (m := exObjects) exRow_ok_double
    (P := ⟨fun i j => if i = j then 1 else 0, fun _ => 0⟩)
    (by constructor <;> intro a b <;> fin_cases a <;> fin_cases b <;> simp) (ids := [1]) (p := ⟨.fin 0, false, false⟩)
    (i := (63, 0, 0)) (by decide) (by rw [exObjects_chosen]; decide) (j := (0, 0, 0)) (by decide) (by rw [exObjects_chosen])
  change g.dims = ⟨64, 1, 1⟩ at hd
  change g.s = 1 at hs
  have hframe : ∀ x : Fin 3 → ℝ, InFrame g.pose.R g.pose.t x x := by
    rw [hP]; intro x a; fin_cases a <;> simp
  have hN : ∀ a, (axisCells g.dims a : ℝ) ≤ 64 := by
    rw [hd]; intro a; fin_cases a <;> simp [axisCells]
  have hG := hg.generated
  rw [show (fun i => ([1].contains (Prod.snd (exObjects.data i)) || [1].length == 0) && occFilled ⟨.fin 0, false, false⟩ (exObjects.data i).1) =
    fun i : Idx => decide (i.1 = 0) from funext fun i => by
      rw [Bool.eq_iff_iff, decide_eq_true_eq, ← exObjects_chosen]; exact chosen_iff i] at hG
  obtain ⟨e', he', hlow⟩ := row_estimate_double hG hd hs
  refine ⟨g, hg, hs, hN, ⟨e', he', hlow⟩, fun y hy => ?_⟩
  have := (C82_objects_double hg (by rw [hs]; norm_num) (by rw [hs]; norm_num) (N := 64) (by norm_num) (by norm_num) hN (.inl rfl) he'
    (hframe _) (q' := ![81 / 2, 1 / 2, 1 / 2]) (o := ![0, 0, 0]) (by rw [hd]; intro a; fin_cases a <;> simp [axisCells]) (hframe y)
    (by rw [hs]; exact hy)).1 ((exObjects_chosen _).2 (by decide))
  have h3 : Real.sqrt 3 ≤ 19 / 10 := by rw [Real.sqrt_le_left (by norm_num)]; norm_num
  have h0 : dist3 (point4 (![81 / 2, 1 / 2, 1 / 2] : Fin 3 → ℝ)).v ![81 / 2, 1 / 2, 1 / 2] = 0 := by
    unfold dist3 point4; simp
  rw [h0, hs] at this
  norm_num at this
  linarith

theorem makeAll_exists {C : Type} {occ : C → Fl} {obj : C → Nat} {ro : Rounding} {m : CellMap C} {p : GenParams}
    (hok : GenOK ro m.info) : ∃ sdfs, MakeAll occ obj ro m p (some sdfs) := by
  obtain ⟨r, hr⟩ := separateRuns_exists (ext := ExtractTagged occ obj ro m p)
    (fun l => gridRuns_exists hok _ _ _) (objectIds obj m) (fun _ => none)
  obtain ⟨sdfs, rfl, -⟩ := C09_all_object_sdfs hok hr
  exact ⟨sdfs, hr⟩

theorem extractTagged_exists {C : Type} {occ : C → Fl} {obj : C → Nat} {ro : Rounding} {m : CellMap C} {p : GenParams}
    (hok : GenOK ro m.info) (ids : List Nat) : ∃ out, ExtractTagged occ obj ro m p ids (some out) := by
  obtain ⟨r, hr⟩ := gridRuns_exists hok (isFilledTagged occ obj m ids p) p.addBorder p.oob
  obtain ⟨out, rfl, -⟩ := C08_extract_tagged hok hr
  exact ⟨out, hr⟩

/-- Both objects of that row are obstacles with ids, so one of the two fields says how far the nearest obstacle is, in machine
arithmetic. -/
example : ∃ whole sdfs, ExtractTagged Prod.fst Prod.snd floatSDF exObjects ⟨.fin 0, false, false⟩ [] (some whole) ∧
    MakeAll Prod.fst Prod.snd floatSDF exObjects ⟨.fin 0, false, false⟩ (some sdfs) ∧
    ∃ k v, sdfs k = some v ∧ v (40, 0, 0) = whole (40, 0, 0) := by
  obtain ⟨whole, hw⟩ := extractTagged_exists (occ := Prod.fst) (obj := Prod.snd) (m := exObjects) (p := ⟨.fin 0, false, false⟩) exRow_ok []
  obtain ⟨sdfs, hall⟩ := makeAll_exists (occ := Prod.fst) (obj := Prod.snd) (m := exObjects) (p := ⟨.fin 0, false, false⟩) exRow_ok
  refine ⟨whole, sdfs, hw, hall, (C82_least_object_distance exRow_ok hw hall (fun j _ ho => ?_) ⟨(0, 0, 0), by decide, ?_⟩ (by decide)
    ?_).2⟩
  · have := (exObjects_obstacle j).1 ho
    unfold exObjects
    dsimp only
    split_ifs with h1 h2
    · simp
    · simp
    · simp [h1, h2] at this
  · exact (exObjects_obstacle _).2 (.inl rfl)
  · exact fun h => absurd ((exObjects_obstacle _).1 h) (by decide)

/-- A row of 64 cells of edge 1: the first is of object 1, the last an obstacle of no object. -/
noncomputable def exUnnamed : CellMap (Fl × Nat) where
  info := ⟨⟨64, 1, 1⟩, 1, 1, 1⟩
  data i := if i.1 = 0 then (.fin 1, 1) else if i.1 = 63 then (.fin 1, 0) else (.fin 0, 0)

theorem exUnnamed_obstacle (i : Idx) : Obstacle false (exUnnamed.data i).1 ↔ i.1 = 0 ∨ i.1 = 63 := by
  unfold exUnnamed Obstacle
  dsimp only
  split_ifs with h1 h2 <;> simp [*, AboveHalf] <;> norm_num

theorem exUnnamed_ok : GenOK exactRounding exUnnamed.info :=
  ⟨exact_rq, exact_rr, exact_rr, ⟨rfl, rfl⟩, one_pos, rfl, one_pos, exRow_ok.fits⟩

/-- Cell 40 is nearer to the obstacle without id than to object 1: every per-object field overestimates there. -/
example : ∃ whole sdfs, ExtractTagged Prod.fst Prod.snd exactRounding exUnnamed ⟨.fin 0, false, false⟩ [] (some whole) ∧
    MakeAll Prod.fst Prod.snd exactRounding exUnnamed ⟨.fin 0, false, false⟩ (some sdfs) ∧ (sdfs 1).isSome ∧
    ∀ k v, sdfs k = some v → Rl.le (whole (40, 0, 0)) (v (40, 0, 0)) ∧ v (40, 0, 0) ≠ whole (40, 0, 0) := by
  obtain ⟨whole, hw⟩ := extractTagged_exists (occ := Prod.fst) (obj := Prod.snd) (m := exUnnamed) (p := ⟨.fin 0, false, false⟩)
    exUnnamed_ok []
  obtain ⟨sdfs, hall⟩ := makeAll_exists (occ := Prod.fst) (obj := Prod.snd) (m := exUnnamed) (p := ⟨.fin 0, false, false⟩) exUnnamed_ok
  refine ⟨whole, sdfs, hw, hall, ?_, C82_unnamed_obstacle_missed exUnnamed_ok rfl rfl rfl hw hall (by decide) ?_ (j := (63, 0, 0))
    (by decide) ((exUnnamed_obstacle _).2 (.inr rfl)) ?_⟩
  · obtain ⟨_, e, hk, -⟩ := C09_all_object_sdfs exUnnamed_ok hall
    cases e
    exact (hk 1).2 ⟨by simp, (0, 0, 0), by decide, by simp [exUnnamed]⟩
  · exact fun h => absurd ((exUnnamed_obstacle _).1 h) (by decide)
  · rintro ⟨a, b, c⟩ ⟨-, hb, hc⟩ ho hne
    have hb' : b = 0 := by change b < 1 at hb; omega
    have hc' : c = 0 := by change c < 1 at hc; omega
    subst b c
    rcases (exUnnamed_obstacle _).1 ho with h | h <;> dsimp only at h <;> subst h
    · decide
    · simp [exUnnamed] at hne

end VGT
