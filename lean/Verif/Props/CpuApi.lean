import Verif.Lemmas.CpuApi

/-!
C61: doing the steps of the CPU voxelizer one at a time.
-/
set_option autoImplicit false

namespace VGT.Spec
open VGT VGT.EDT

variable {K : Type} [Field K] [LinearOrder K] [IsStrictOrderedRing K] [FloorRing K]

/-- The grid may be raycast into. -/
def UsableGrid (g : TrackGrid K) : Prop := g.initialized = true ∧ g.uniform = true

/-- `RaycastPointCloud` called for one cloud after the other on the same grid, none of the calls throwing. -/
inductive CastAll (norm : Vec K → K) : List (WorldCloud K) → TrackGrid K → TrackGrid K → Prop
  | nil (g : TrackGrid K) : CastAll norm [] g g
  | cons {w : WorldCloud K} {ws : List (WorldCloud K)} {g g₁ g₂ : TrackGrid K} :
      RaycastCloudRuns norm w g false g₁ → CastAll norm ws g₁ g₂ → CastAll norm (w :: ws) g g₂

/-- Only the counters may differ. -/
def SameGrid (g g' : TrackGrid K) : Prop :=
  g'.initialized = g.initialized ∧ g'.uniform = g.uniform ∧ g'.dims = g.dims ∧ g'.cellSize = g.cellSize ∧ g'.inv = g.inv

end VGT.Spec

namespace VGT
open VGT.EDT VGT.Par VGT.Spec

section
variable {K : Type} [Field K] [LinearOrder K] [IsStrictOrderedRing K] [FloorRing K]

/-- What `RaycastPointCloud` can do on a usable grid. -/
theorem raycastCloud_iff {norm : Vec K → K} {w : WorldCloud K} {g g' : TrackGrid K} {threw : Bool} (hg : UsableGrid g) :
    RaycastCloudRuns norm w g threw g' ↔ threw = false ∧ CloudOk g.dims g.cellSize norm (w.inFrame g.inv) ∧
      g' = { g with data := addMarks g.dims g.data (cloudMarks g.dims g.cellSize norm (w.inFrame g.inv)) } := by
  unfold RaycastCloudRuns
  rw [if_pos (by rw [hg.1, hg.2]; rfl)]
  simp only [cloudRunsOn_iff]
  constructor
  · rintro ⟨h, tr, ⟨h1, rfl⟩, rfl⟩
    exact ⟨h, h1, rfl⟩
  · rintro ⟨h, h1, rfl⟩
    exact ⟨h, _, ⟨h1, rfl⟩, rfl⟩

/-! ### Invalid input -/

/-- C61, rejection.  A cloud is refused exactly when the grid is not initialized or its voxels are not cubes; a point also
when a coordinate of it or of the sensor is not finite; grids are combined only if all of them are usable and have the sizes
of the map.  A refused call changes nothing, wherever in the list the unusable grid is. -/
theorem C61_rejected (norm : Vec K → K) (o : FilterOptions) :
    (∀ (w : WorldCloud K) (g g' : TrackGrid K) (threw : Bool), RaycastCloudRuns norm w g threw g' →
      (threw = true ↔ ¬ UsableGrid g) ∧ (threw = true → g' = g)) ∧
    (∀ (oc p : Option (Vec K)) (range : WithTop K) (g g' : TrackGrid K) (threw : Bool),
      raycastSinglePoint norm oc p range g = some (threw, g') →
      (threw = true ↔ oc = none ∨ p = none ∨ ¬ UsableGrid g) ∧ (threw = true → g' = g)) ∧
    (∀ (gs : List (TrackGrid K)) (m m' : PlacedMap K) (threw : Bool), CombineRuns o gs m threw m' →
      (threw = true ↔ ∃ g ∈ gs, ¬ UsableGrid g ∨ g.dims ≠ m.dims ∨ g.cellSize ≠ m.cellSize) ∧ (threw = true → m' = m)) := by
  refine ⟨?_, ?_, ?_⟩
  · intro w g g' threw h
    unfold RaycastCloudRuns at h
    by_cases hu : UsableGrid g
    · rw [if_pos (by rw [hu.1, hu.2]; rfl)] at h
      rw [h.1]
      simp [hu]
    · have : ¬ (g.initialized && g.uniform) = true := by
        unfold UsableGrid at hu
        simpa using hu
      rw [if_neg this] at h
      simp [h.1, hu, h.2]
  · intro oc p range g g' threw h
    cases oc with
    | none =>
      simp only [raycastSinglePoint, Option.some.injEq, Prod.mk.injEq] at h
      simp [← h.1, h.2]
    | some oc =>
      cases p with
      | none =>
        simp only [raycastSinglePoint, Option.some.injEq, Prod.mk.injEq] at h
        simp [← h.1, h.2]
      | some p =>
        simp only [raycastSinglePoint] at h
        by_cases hu : UsableGrid g
        · rw [if_neg (by rw [hu.1, hu.2]; decide)] at h
          obtain ⟨ms, _, h⟩ := Option.map_eq_some_iff.1 h
          simp only [Prod.mk.injEq] at h
          simp [← h.1, hu]
        · have : (!g.initialized || !g.uniform) = true := by
            unfold UsableGrid at hu
            cases h1 : g.initialized <;> cases h2 : g.uniform <;> simp_all
          rw [if_pos this] at h
          simp only [Option.some.injEq, Prod.mk.injEq] at h
          obtain ⟨rfl, rfl⟩ := h
          simp [hu]
  · intro gs m m' threw h
    have hiff : (gs.any fun g => combineRejects g m) = true ↔
        ∃ g ∈ gs, ¬ UsableGrid g ∨ g.dims ≠ m.dims ∨ g.cellSize ≠ m.cellSize := by
      rw [List.any_eq_true]
      constructor
      · rintro ⟨g, hg, h⟩
        refine ⟨g, hg, ?_⟩
        unfold combineRejects at h
        unfold UsableGrid
        by_cases h1 : g.initialized = true <;> by_cases h2 : g.uniform = true <;> simp_all
      · rintro ⟨g, hg, h⟩
        refine ⟨g, hg, ?_⟩
        unfold combineRejects
        unfold UsableGrid at h
        by_cases h1 : g.initialized = true <;> by_cases h2 : g.uniform = true <;> simp_all
    unfold CombineRuns at h
    by_cases hr : (gs.any fun g => combineRejects g m) = true
    · rw [if_pos hr] at h
      rw [hiff] at hr
      exact ⟨⟨fun _ => hr, fun _ => h.1⟩, fun _ => h.2⟩
    · rw [if_neg hr] at h
      rw [hiff] at hr
      rw [h.1]
      simp [hr]

/-! ### Accumulation -/

/-- C61, accumulation.  Casting a cloud into a grid that already holds counts adds, at every cell and for every schedule,
exactly the numbers of rays through and into it, in 32-bit arithmetic; if the sums fit, they are the plain sums.  The grid's
sizes and pose stay as they are and no counter beyond the grid is touched. -/
theorem C61_cloud_adds {norm : Vec K → K} {w : WorldCloud K} {g g' : TrackGrid K} (hu : UsableGrid g) {threw : Bool}
    (h : RaycastCloudRuns norm w g threw g') :
    threw = false ∧ SameGrid g g' ∧ (∀ v, g.dims.total ≤ v → g'.data v = g.data v) ∧
    ∀ i, CellInGrid (axisCells g.dims) i → ∀ a b : ℤ, g.data (dataIndex g.dims i) = (a, b) → IsInt32 a → IsInt32 b →
      let free := hitCount g.dims g.cellSize norm (w.inFrame g.inv) (.free i)
      let filled := hitCount g.dims g.cellSize norm (w.inFrame g.inv) (.filled i)
      g'.data (dataIndex g.dims i) = (wrap32 (a + free), wrap32 (b + filled)) ∧
      (a + free < 2 ^ 31 → b + filled < 2 ^ 31 → g'.data (dataIndex g.dims i) = (a + free, b + filled)) := by
  rw [raycastCloud_iff hu] at h
  obtain ⟨ht, hok, rfl⟩ := h
  refine ⟨ht, ⟨rfl, rfl, rfl, rfl, rfl⟩, ?_, ?_⟩
  · intro v hv
    show addMarks g.dims g.data _ v = g.data v
    have hm : ∀ m ∈ cloudMarks g.dims g.cellSize norm (w.inFrame g.inv), dataIndex g.dims m.cell ≠ v := by
      intro m hm
      unfold cloudMarks at hm
      obtain ⟨x, _, hm⟩ := List.mem_flatMap.1 hm
      cases hp : pointMarks g.dims g.cellSize norm (w.inFrame g.inv) x with
      | none => rw [hp] at hm; simp at hm
      | some ms =>
        rw [hp] at hm
        have := dataIndex_lt ((pointMarks_marks hp).1 m hm)
        omega
    generalize cloudMarks g.dims g.cellSize norm (w.inFrame g.inv) = ms at hm
    generalize g.data = tr
    induction ms generalizing tr with
    | nil => rfl
    | cons m ms ih =>
      show addMarks g.dims (addMark g.dims tr m) ms v = tr v
      rw [ih (fun x hx => hm x (List.mem_cons_of_mem _ hx))]
      have h1 := (hm m List.mem_cons_self).symm
      cases m with
      | free i => unfold addMark; simp only [Function.update_of_ne (show v ≠ dataIndex g.dims i from h1)]
      | filled i => unfold addMark; simp only [Function.update_of_ne (show v ≠ dataIndex g.dims i from h1)]
  · intro i hi a b hab ha hb free filled
    have key : addMarks g.dims g.data (cloudMarks g.dims g.cellSize norm (w.inFrame g.inv)) (dataIndex g.dims i) =
        (wrap32 (a + free), wrap32 (b + filled)) := by
      obtain ⟨e1, e2, _⟩ := cloudMarks_count (s := g.cellSize) (norm := norm) (c := w.inFrame g.inv) hi
      rw [addMarks_value _ _ (by rw [hab]; exact ha) (by rw [hab]; exact hb), hab, e1, e2]
    refine ⟨key, fun h1 h2 => ?_⟩
    show addMarks g.dims g.data (cloudMarks g.dims g.cellSize norm (w.inFrame g.inv)) (dataIndex g.dims i) = _
    rw [key, wrap32_of_isInt32 ⟨by have := ha.1; omega, h1⟩, wrap32_of_isInt32 ⟨by have := hb.1; omega, h2⟩]

/-- The marks of several clouds. -/
def allMarks (norm : Vec K → K) (g : TrackGrid K) (ws : List (WorldCloud K)) : List Mark :=
  ws.flatMap fun w => cloudMarks g.dims g.cellSize norm (w.inFrame g.inv)

theorem castAll_iff {norm : Vec K → K} : ∀ {ws : List (WorldCloud K)} {g g' : TrackGrid K}, UsableGrid g →
    (CastAll norm ws g g' ↔ (∀ w ∈ ws, CloudOk g.dims g.cellSize norm (w.inFrame g.inv)) ∧
      g' = { g with data := addMarks g.dims g.data (allMarks norm g ws) })
  | [], g, g', hu => by
    constructor
    · intro h
      cases h
      exact ⟨by simp, rfl⟩
    · rintro ⟨_, rfl⟩
      exact .nil g
  | w :: ws, g, g', hu => by
    constructor
    · intro h
      cases h with
      | cons h1 h2 =>
        obtain ⟨_, hok, rfl⟩ := (raycastCloud_iff hu).1 h1
        obtain ⟨hoks, rfl⟩ := (castAll_iff (ws := ws) (by exact hu)).1 h2
        refine ⟨?_, ?_⟩
        · intro x hx
          rcases List.mem_cons.1 hx with rfl | hx
          · exact hok
          · exact hoks x hx
        · simp only [allMarks, List.flatMap_cons, addMarks_append]
    · rintro ⟨hok, rfl⟩
      refine .cons ((raycastCloud_iff hu).2 ⟨rfl, hok w List.mem_cons_self, rfl⟩)
        ((castAll_iff (ws := ws) (by exact hu)).2 ⟨fun x hx => hok x (List.mem_cons_of_mem _ hx), ?_⟩)
      simp only [allMarks, List.flatMap_cons, addMarks_append]

/-- C61, order.  Casting several clouds into one grid gives the same counters in every order of the clouds and under every
schedule of each of the calls. -/
theorem C61_cloud_order {norm : Vec K → K} {ws ws' : List (WorldCloud K)} (hp : ws.Perm ws') {g g' : TrackGrid K}
    (hu : UsableGrid g) (h : CastAll norm ws g g') :
    CastAll norm ws' g g' ∧ ∀ g'', CastAll norm ws' g g'' → g'' = g' := by
  rw [castAll_iff hu] at h
  have e : addMarks g.dims g.data (allMarks norm g ws) = addMarks g.dims g.data (allMarks norm g ws') :=
    addMarks_perm _ (hp.flatMap_right _)
  refine ⟨(castAll_iff hu).2 ⟨fun w hw => h.1 w (hp.mem_iff.2 hw), by rw [h.2, e]⟩, fun g'' h'' => ?_⟩
  rw [((castAll_iff hu).1 h'').2, h.2, e]

/-- C61, splitting.  Casting a cloud is the same as casting its points in two parts, in whatever way they are divided. -/
theorem C61_cloud_split {norm : Vec K → K} {w : WorldCloud K} {a b : List (Option (Vec K))} (hp : w.points.Perm (a ++ b))
    {g g' : TrackGrid K} (hu : UsableGrid g) :
    RaycastCloudRuns norm w g false g' ↔ CastAll norm [{ w with points := a }, { w with points := b }] g g' := by
  rw [raycastCloud_iff hu, castAll_iff hu]
  have hpm : ∀ (l : List (Option (Vec K))) (x : Option (Vec K)),
      pointMarks g.dims g.cellSize norm (({ w with points := l } : WorldCloud K).inFrame g.inv) x =
      pointMarks g.dims g.cellSize norm (w.inFrame g.inv) x := by
    intro l x
    cases x <;> rfl
  have e : addMarks g.dims g.data (cloudMarks g.dims g.cellSize norm (w.inFrame g.inv)) = addMarks g.dims g.data
      (allMarks norm g [{ w with points := a }, { w with points := b }]) := by
    refine addMarks_perm _ ?_
    unfold allMarks
    simp only [List.flatMap_cons, List.flatMap_nil, List.append_nil]
    unfold cloudMarks
    simp only [hpm]
    show (w.points.flatMap _).Perm (a.flatMap _ ++ b.flatMap _)
    rw [← List.flatMap_append]
    exact hp.flatMap_right _
  rw [e]
  simp only [true_and, List.mem_cons, List.not_mem_nil, or_false, forall_eq_or_imp, forall_eq]
  have hok : CloudOk g.dims g.cellSize norm (w.inFrame g.inv) ↔
      CloudOk g.dims g.cellSize norm (({ w with points := a } : WorldCloud K).inFrame g.inv) ∧
      CloudOk g.dims g.cellSize norm (({ w with points := b } : WorldCloud K).inFrame g.inv) := by
    unfold CloudOk
    simp only [hpm]
    show (∀ p ∈ w.points, _) ↔ (∀ p ∈ a, _) ∧ (∀ p ∈ b, _)
    constructor
    · intro h
      exact ⟨fun p hp' => h p (hp.mem_iff.2 (List.mem_append_left _ hp')),
        fun p hp' => h p (hp.mem_iff.2 (List.mem_append_right _ hp'))⟩
    · rintro ⟨h1, h2⟩ p hp'
      rcases List.mem_append.1 (hp.mem_iff.1 hp') with h | h
      · exact h1 p h
      · exact h2 p h
  rw [hok]

/-- The marks of several points. -/
def rayMarks (norm : Vec K → K) (o : Vec K) (range : WithTop K) (g : TrackGrid K) (ps : List (Vec K)) : List Mark :=
  ps.flatMap fun p => (raycast g.dims g.cellSize o p (norm fun a => p a - o a) range).getD []

theorem raycastPoints_eq {norm : Vec K → K} {range : WithTop K} {o : Vec K} : ∀ (ps : List (Vec K)) (g : TrackGrid K),
    UsableGrid g → raycastPoints norm (some o) range (ps.map some) g =
      if ∀ p ∈ ps, (raycast g.dims g.cellSize o p (norm fun a => p a - o a) range).isSome then
        some (false, { g with data := addMarks g.dims g.data (rayMarks norm o range g ps) })
      else none
  | [], g, hu => by simp [raycastPoints, addMarks, rayMarks]
  | p :: ps, g, hu => by
    simp only [List.map_cons, raycastPoints, raycastSinglePoint]
    rw [if_neg (by rw [hu.1, hu.2]; decide)]
    cases h : raycast g.dims g.cellSize o p (norm fun a => p a - o a) range with
    | none =>
      rw [if_neg]
      · rfl
      · intro hall
        have := hall p List.mem_cons_self
        rw [h] at this
        cases this
    | some ms =>
      simp only [Option.map_some]
      rw [raycastPoints_eq ps _ (by exact hu)]
      by_cases hall : ∀ q ∈ ps, (raycast g.dims g.cellSize o q (norm fun a => q a - o a) range).isSome
      · rw [if_pos (by exact hall), if_pos (by
          intro q hq
          rcases List.mem_cons.1 hq with rfl | hq
          · rw [h]; rfl
          · exact hall q hq)]
        simp only [rayMarks, List.flatMap_cons, addMarks_append, h, Option.getD_some]
        rfl
      · rw [if_neg (by exact hall), if_neg (fun h' => hall fun q hq => h' q (List.mem_cons_of_mem _ hq))]

/-- C61, point by point.  Calling `RaycastSinglePoint` for the finite points of a cloud, in any order, does exactly what
`RaycastPointCloud` does in parallel: the same counters, and undefined behaviour for the same clouds. -/
theorem C61_points_one_by_one {norm : Vec K → K} {w : WorldCloud K} {ps : List (Vec K)}
    (hp : ps.Perm ((w.points.filterMap id).map fun x => w.origin x)) {g g' : TrackGrid K} (hu : UsableGrid g) :
    raycastPoints norm (some (g.inv (w.origin fun _ => 0))) w.range (ps.map fun x => some (g.inv x)) g = some (false, g') ↔
    RaycastCloudRuns norm w g false g' := by
  have e0 : (ps.map fun x => some (g.inv x)) = (ps.map g.inv).map some := by rw [List.map_map]; rfl
  rw [e0, raycastPoints_eq _ g hu, raycastCloud_iff hu]
  have hpm : ∀ x : Vec K, pointMarks g.dims g.cellSize norm (w.inFrame g.inv) (some x) =
      raycast g.dims g.cellSize (g.inv (w.origin fun _ => 0)) (g.inv (w.origin x))
        (norm fun a => g.inv (w.origin x) a - g.inv (w.origin fun _ => 0) a) w.range := fun x => rfl
  have hok : (∀ p ∈ ps.map g.inv, (raycast g.dims g.cellSize (g.inv (w.origin fun _ => 0)) p
      (norm fun a => p a - g.inv (w.origin fun _ => 0) a) w.range).isSome) ↔
      CloudOk g.dims g.cellSize norm (w.inFrame g.inv) := by
    constructor
    · intro h x hx
      cases x with
      | none => rfl
      | some x =>
        rw [hpm]
        refine h _ (List.mem_map_of_mem (hp.mem_iff.2 (List.mem_map_of_mem ?_)))
        exact List.mem_filterMap.2 ⟨some x, hx, rfl⟩
    · intro h p hp'
      obtain ⟨y, hy, rfl⟩ := List.mem_map.1 hp'
      obtain ⟨x, hx, rfl⟩ := List.mem_map.1 (hp.mem_iff.1 hy)
      obtain ⟨z, hz, hzx⟩ := List.mem_filterMap.1 hx
      simp only [id_eq] at hzx
      subst hzx
      exact h (some x) hz
  have hmarks : addMarks g.dims g.data (rayMarks norm (g.inv (w.origin fun _ => 0)) w.range g (ps.map g.inv)) =
      addMarks g.dims g.data (cloudMarks g.dims g.cellSize norm (w.inFrame g.inv)) := by
    refine addMarks_perm _ ?_
    refine ((hp.map g.inv).flatMap_right _).trans (List.Perm.of_eq ?_)
    unfold cloudMarks
    show _ = w.points.flatMap _
    generalize w.points = l
    induction l with
    | nil => rfl
    | cons x l ih =>
      cases x with
      | none =>
        rw [List.filterMap_cons_none (by rfl), ih]
        rfl
      | some x =>
        rw [List.filterMap_cons_some (b := x) (by rfl), List.map_cons, List.map_cons, List.flatMap_cons, ih]
        rfl
  by_cases h : ∀ p ∈ ps.map g.inv, (raycast g.dims g.cellSize (g.inv (w.origin fun _ => 0)) p
      (norm fun a => p a - g.inv (w.origin fun _ => 0) a) w.range).isSome
  · rw [if_pos h, hmarks]
    simp only [Option.some.injEq, Prod.mk.injEq, true_and, hok.1 h, eq_comm]
  · rw [if_neg h]
    simp only [reduceCtorEq, false_iff]
    rintro ⟨_, h', _⟩
    exact h (hok.2 h')

/-! ### The steps make up the whole -/

/-- C61, the steps are the whole.  Casting every cloud into a fresh grid in the frame of the static environment and then
combining the grids gives what `VoxelizePointClouds` gives, and nothing else. -/
theorem C61_steps_make_the_whole {norm : Vec K → K} {o : FilterOptions} {static output : PlacedMap K}
    (hs : static.initialized = true) (ho : output.initialized = true) (hd : static.dims = output.dims)
    (hc : static.cellSize = output.cellSize) (ws : List (WorldCloud K)) (out : PlacedMap K) :
    PlacedVoxelizeRuns norm static o (ws.map some) output false out ↔
    ∃ gs, List.Forall₂ (fun w g =>
        RaycastCloudRuns norm w (.fresh static.dims static.cellSize static.inv) false g) ws gs ∧
      CombineRuns o gs output false out := by
  have hfa : ∀ gs : List (TrackGrid K), List.Forall₂ (fun w g =>
        RaycastCloudRuns norm w (.fresh static.dims static.cellSize static.inv) false g) ws gs ↔
      ∃ trs, List.Forall₂ (CloudRuns static.dims static.cellSize norm) (ws.map fun w => w.inFrame static.inv) trs ∧
        gs = trs.map fun tr => { TrackGrid.fresh static.dims static.cellSize static.inv with data := tr } := by
    have hone : ∀ w g, RaycastCloudRuns norm w (.fresh static.dims static.cellSize static.inv) false g ↔
        ∃ tr, CloudRuns static.dims static.cellSize norm (w.inFrame static.inv) tr ∧
          g = { TrackGrid.fresh static.dims static.cellSize static.inv with data := tr } := by
      intro w g
      unfold RaycastCloudRuns
      rw [if_pos (by rfl)]
      simp only [true_and, TrackGrid.fresh, cloudRunsOn_zero]
    induction ws with
    | nil =>
      intro gs
      simp
    | cons w ws ih =>
      intro gs
      constructor
      · intro h
        cases h with
        | cons h1 h2 =>
          obtain ⟨tr, h1', rfl⟩ := (hone _ _).1 h1
          obtain ⟨trs, h2', rfl⟩ := (ih _).1 h2
          exact ⟨tr :: trs, .cons h1' h2', rfl⟩
      · rintro ⟨trs, h, rfl⟩
        cases h with
        | cons h1 h2 =>
          exact .cons ((hone _ _).2 ⟨_, h1, rfl⟩) ((ih _).2 ⟨_, h2, rfl⟩)
  have hrej : voxelizeRejects static.toVoxMap output.toVoxMap
      ((ws.map some).map fun c => c.map fun w => w.inFrame static.inv) = false := by
    unfold voxelizeRejects
    rw [hs, ho, hd, hc]
    simp
  have hclouds : ((ws.map some).map fun c => c.map fun w => w.inFrame static.inv).filterMap id =
      ws.map fun w => w.inFrame static.inv := by
    induction ws with
    | nil => rfl
    | cons w ws ih => simp
  unfold PlacedVoxelizeRuns VoxelizeRuns
  simp only [hrej, hclouds, Bool.false_eq_true, if_false]
  unfold CpuVoxelizeRuns
  constructor
  · rintro ⟨m, ⟨_, trs, h1, data', h2, rfl⟩, rfl⟩
    refine ⟨_, (hfa _).2 ⟨trs, h1, rfl⟩, ?_⟩
    unfold CombineRuns
    rw [if_neg (by
      simp only [List.any_eq_true, List.mem_map, not_exists, not_and]
      rintro g ⟨tr, _, rfl⟩
      unfold combineRejects
      simp [TrackGrid.fresh, hd, hc])]
    refine ⟨rfl, data', ?_, rfl⟩
    simpa [List.map_map, Function.comp_def] using h2
  · rintro ⟨gs, h1, h2⟩
    obtain ⟨trs, h1', rfl⟩ := (hfa _).1 h1
    unfold CombineRuns at h2
    rw [if_neg (by
      simp only [List.any_eq_true, List.mem_map, not_exists, not_and]
      rintro g ⟨tr, _, rfl⟩
      unfold combineRejects
      simp [TrackGrid.fresh, hd, hc])] at h2
    obtain ⟨_, data', h2, rfl⟩ := h2
    refine ⟨_, ⟨trivial, trs, h1', data', ?_, rfl⟩, rfl⟩
    simpa [List.map_map, Function.comp_def] using h2

end

/-! ### Concrete cases -/

/-- The sensor at the centre of the first of three cells, seeing points in the second and third cell. -/
def rowCloud : WorldCloud ℚ := ⟨fun x a => x a + 1 / 2, ⊤, [some ![1, 0, 0], none, some ![2, 0, 0]]⟩

/-- A row of three cells at the world origin that has already counted five rays through every cell. -/
def usedGrid : TrackGrid ℚ := { TrackGrid.fresh ⟨3, 1, 1⟩ (1 : ℚ) id with data := fun _ => (5, 0) }

theorem row_ok : CloudOk ⟨3, 1, 1⟩ 1 xNorm (rowCloud.inFrame id) := by
  unfold CloudOk; decide +kernel

/-- The hypotheses of the accumulation theorems are met. -/
example : ∃ g', RaycastCloudRuns xNorm rowCloud usedGrid false g' ∧ g'.data 1 = (6, 1) ∧ g'.data 2 = (5, 1) := by
  refine ⟨_, (raycastCloud_iff ⟨rfl, rfl⟩).2 ⟨rfl, row_ok, rfl⟩, ?_⟩
  decide +kernel

example : rowCloud.points.Perm ([some ![2, 0, 0]] ++ [some ![1, 0, 0], none]) := by decide +kernel

example : ([![5 / 2, 1 / 2, 1 / 2], ![3 / 2, 1 / 2, 1 / 2]] : List (Vec ℚ)).Perm
    ((rowCloud.points.filterMap id).map fun x => rowCloud.origin x) := by decide +kernel

/-- Three unknown cells in a row, at the given place on the x axis of the world. -/
def placedRow (x : ℚ) : PlacedMap ℚ := ⟨⟨true, ⟨3, 1, 1⟩, 1, fun _ => .fin (1 / 2)⟩, fun p a => p a - if a = 0 then x else 0⟩

theorem combine_iff {K : Type} [Field K] [LinearOrder K] [IsStrictOrderedRing K] [FloorRing K] {o : FilterOptions}
    {gs : List (TrackGrid K)} {m m' : PlacedMap K} (h : ∀ g ∈ gs, combineRejects g m = false) :
    CombineRuns o gs m false m' ↔ (∀ v < m.dims.total, (o.filterCell (gs.map fun g => g.data v) (m.data v)).isSome) ∧
      m' = { m with data := filterData (fun v => o.filterCell (gs.map fun g => g.data v)) m.dims.total m.data } := by
  unfold CombineRuns
  rw [if_neg (by simpa using h)]
  simp only [true_and, filterRuns_iff]
  constructor
  · rintro ⟨d, ⟨h1, rfl⟩, rfl⟩
    exact ⟨h1, rfl⟩
  · rintro ⟨h1, rfl⟩
    exact ⟨_, ⟨h1, rfl⟩, rfl⟩

/-- One point in the middle cell. -/
def nearCloud : WorldCloud ℚ := ⟨fun x a => x a + 1 / 2, ⊤, [some ![1, 0, 0]]⟩

/-- Three points in the last cell, seen through the middle one. -/
def beyondCloud : WorldCloud ℚ := ⟨fun x a => x a + 1 / 2, ⊤, [some ![2, 0, 0], some ![2, 0, 0], some ![2, 0, 0]]⟩

/-- A fresh tracking grid for the three cells. -/
def rowGrid : TrackGrid ℚ := .fresh ⟨3, 1, 1⟩ 1 id

/-- The tracking grid after casting the clouds. -/
def castGrid (g : TrackGrid ℚ) (ws : List (WorldCloud ℚ)) : TrackGrid ℚ :=
  { g with data := addMarks g.dims g.data (allMarks xNorm g ws) }

/-- C61, limit: accumulating two cameras in one grid is not the same as giving each its own grid.  With half of the rays
enough for free, an obstacle that one camera sees is reported filled from two grids and free from one. -/
theorem C61_cameras_need_own_grids : ∃ (o : FilterOptions) (g₁ g₂ g₁₂ : TrackGrid ℚ) (out out' : PlacedMap ℚ),
    FilterOptions.make (.fin (1 / 2)) 1 1 = some o ∧
    RaycastCloudRuns xNorm nearCloud rowGrid false g₁ ∧ RaycastCloudRuns xNorm beyondCloud rowGrid false g₂ ∧
    CastAll xNorm [nearCloud, beyondCloud] rowGrid g₁₂ ∧
    CombineRuns o [g₁, g₂] (placedRow 0) false out ∧ CombineRuns o [g₁₂] (placedRow 0) false out' ∧
    out.data 1 = .fin 1 ∧ out'.data 1 = .fin 0 := by
  have ok1 : CloudOk ⟨3, 1, 1⟩ 1 xNorm (nearCloud.inFrame id) := by unfold CloudOk; decide +kernel
  have ok2 : CloudOk ⟨3, 1, 1⟩ 1 xNorm (beyondCloud.inFrame id) := by unfold CloudOk; decide +kernel
  have hr : ∀ ws, combineRejects (castGrid rowGrid ws) (placedRow 0) = false := by
    intro ws
    unfold combineRejects castGrid rowGrid placedRow TrackGrid.fresh
    simp
  refine ⟨⟨.fin (1 / 2), 1, 1⟩, castGrid rowGrid [nearCloud], castGrid rowGrid [beyondCloud],
    castGrid rowGrid [nearCloud, beyondCloud], _, _, by decide +kernel, (raycastCloud_iff ⟨rfl, rfl⟩).2 ⟨rfl, ok1, ?_⟩,
    (raycastCloud_iff ⟨rfl, rfl⟩).2 ⟨rfl, ok2, ?_⟩, (castAll_iff ⟨rfl, rfl⟩).2 ⟨?_, rfl⟩,
    (combine_iff (by simp [hr])).2 ⟨by decide +kernel, rfl⟩, (combine_iff (by simp [hr])).2 ⟨by decide +kernel, rfl⟩,
    by decide +kernel, by decide +kernel⟩
  · simp only [castGrid, allMarks, List.flatMap_cons, List.flatMap_nil, List.append_nil]
  · simp only [castGrid, allMarks, List.flatMap_cons, List.flatMap_nil, List.append_nil]
  · intro w hw
    simp only [List.mem_cons, List.not_mem_nil, or_false] at hw
    rcases hw with rfl | rfl
    · exact ok1
    · exact ok2

/-- C61, limit: the counters wrap around.  One more ray through a cell that has been seen free 2^31 - 1 times makes its
counter negative, and the cell is no longer free but unknown. -/
theorem C61_counters_wrap : ∃ (g g' : TrackGrid ℚ) (out out' : PlacedMap ℚ),
    UsableGrid g ∧ g.data 0 = (2 ^ 31 - 1, 0) ∧ RaycastCloudRuns xNorm nearCloud g false g' ∧ g'.data 0 = (-2 ^ 31, 0) ∧
    CombineRuns .default [g] (placedRow 0) false out ∧ CombineRuns .default [g'] (placedRow 0) false out' ∧
    out.data 0 = .fin 0 ∧ out'.data 0 = .fin (1 / 2) := by
  have ok1 : CloudOk ⟨3, 1, 1⟩ 1 xNorm (nearCloud.inFrame id) := by unfold CloudOk; decide +kernel
  have hr : ∀ ws tr, combineRejects (castGrid { rowGrid with data := tr } ws) (placedRow 0) = false := by
    intro ws tr
    unfold combineRejects castGrid rowGrid placedRow TrackGrid.fresh
    simp
  refine ⟨castGrid { rowGrid with data := fun v => if v = 0 then (2 ^ 31 - 1, 0) else (0, 0) } [],
    castGrid { rowGrid with data := fun v => if v = 0 then (2 ^ 31 - 1, 0) else (0, 0) } [nearCloud], _, _, ⟨rfl, rfl⟩,
    by decide +kernel, (raycastCloud_iff ⟨rfl, rfl⟩).2 ⟨rfl, ok1, ?_⟩, by decide +kernel,
    (combine_iff (by simp [hr])).2 ⟨by decide +kernel, rfl⟩, (combine_iff (by simp [hr])).2 ⟨by decide +kernel, rfl⟩,
    by decide +kernel, by decide +kernel⟩
  simp only [castGrid, allMarks, List.flatMap_cons, List.flatMap_nil, List.append_nil]
  rfl

/-- C61, limit: poses are not compared.  `CombineAndFilterGrids` takes a tracking grid that lies elsewhere than the map, and
`VoxelizePointClouds` an output map that lies elsewhere than the static environment.  Without any complaint the cell with the
measured point comes out free and a cell in which nothing was measured comes out filled. -/
theorem C61_pose_not_compared : ∃ (x : Vec ℚ) (c c' : IVec),
    nearCloud.points = [some x] ∧
    InCell (placedRow 1).cellSize c ((placedRow 1).inv (nearCloud.origin x)) ∧ CellInGrid (axisCells (placedRow 1).dims) c ∧
    c ≠ c' ∧ CellInGrid (axisCells (placedRow 1).dims) c' ∧
    (∃ g out, RaycastCloudRuns xNorm nearCloud rowGrid false g ∧ CombineRuns .default [g] (placedRow 1) false out ∧
      out.data (dataIndex (placedRow 1).dims c) = .fin 0 ∧ out.data (dataIndex (placedRow 1).dims c') = .fin 1) ∧
    (∃ out, PlacedVoxelizeRuns xNorm (placedRow 0) .default [some nearCloud] (placedRow 1) false out ∧ out.inv = (placedRow 1).inv ∧
      out.data (dataIndex (placedRow 1).dims c) = .fin 0 ∧ out.data (dataIndex (placedRow 1).dims c') = .fin 1) := by
  have ok1 : CloudOk ⟨3, 1, 1⟩ 1 xNorm (nearCloud.inFrame id) := by unfold CloudOk; decide +kernel
  have ok0 : CloudOk ⟨3, 1, 1⟩ 1 xNorm (nearCloud.inFrame (placedRow 0).inv) := by unfold CloudOk; decide +kernel
  refine ⟨![1, 0, 0], ![0, 0, 0], ![1, 0, 0], rfl, ?_, ?_, by decide +kernel, ?_, ?_, ?_⟩
  · unfold InCell; decide +kernel
  · unfold CellInGrid; decide +kernel
  · unfold CellInGrid; decide +kernel
  · refine ⟨castGrid rowGrid [nearCloud], _, (raycastCloud_iff ⟨rfl, rfl⟩).2 ⟨rfl, ok1, ?_⟩,
      (combine_iff ?_).2 ⟨by decide +kernel, rfl⟩, by decide +kernel, by decide +kernel⟩
    · simp only [castGrid, allMarks, List.flatMap_cons, List.flatMap_nil, List.append_nil]
    · intro g hg
      simp only [List.mem_cons, List.not_mem_nil, or_false] at hg
      subst hg
      unfold combineRejects castGrid rowGrid placedRow TrackGrid.fresh
      simp
  · have key := C61_steps_make_the_whole (norm := xNorm) (o := .default) (static := placedRow 0) (output := placedRow 1) rfl rfl rfl
      rfl [nearCloud]
    refine ⟨_, (key _).2 ⟨[castGrid (.fresh ⟨3, 1, 1⟩ 1 (placedRow 0).inv) [nearCloud]],
      .cons ((raycastCloud_iff ⟨rfl, rfl⟩).2 ⟨rfl, ok0, ?_⟩) .nil,
      (combine_iff ?_).2 ⟨by decide +kernel, rfl⟩⟩, rfl, by decide +kernel, by decide +kernel⟩
    · simp only [castGrid, allMarks, List.flatMap_cons, List.flatMap_nil, List.append_nil]
      rfl
    · intro g hg
      simp only [List.mem_cons, List.not_mem_nil, or_false] at hg
      subst hg
      unfold combineRejects castGrid placedRow TrackGrid.fresh
      simp

end VGT
