import Verif.Props.Interp

/-!
C17 (coarse gradient) and C18 (fine gradient).
-/
set_option autoImplicit false

namespace VGT
open VGT.EDT VGT.Spec

section
variable {K : Type} [Field K] [LinearOrder K] [IsStrictOrderedRing K] [FloorRing K]

/-- Rotation of a grid-frame direction to the world. -/
def Spec.IsRotated (R : Fin 3 → Fin 3 → K) (q p : Fin 3 → K) : Prop :=
  ∀ a, p a = R a 0 * q 0 + R a 1 * q 1 + R a 2 * q 2

/-- The cell is on the outside layer of the grid. -/
def Spec.OnEdge (n : Fin 3 → ℕ) (c : Fin 3 → ℤ) : Prop := ∃ a, c a = 0 ∨ c a = (n a : ℤ) - 1

theorem moveTo_inGrid {d : Dims} {i : IVec} (h : inGrid d i = true) {a : Fin 3} {k : ℤ} (h0 : 0 ≤ k) (h1 : k < axisCells d a) :
    inGrid d (moveTo i a k) = true := by
  rw [inGrid_axis] at *
  intro b
  unfold moveTo
  by_cases hb : b = a
  · subst hb; rw [Function.update_self]; exact ⟨h0, h1⟩
  · rw [Function.update_of_ne hb]; exact h b

/-- The stored value of a cell. -/
def Spec.storedAt (data : ℕ × ℕ × ℕ → K) (c : Fin 3 → ℤ) : K := data ((c 0).toNat, (c 1).toNat, (c 2).toNat)

theorem interior_axis {g : SDFGrid K} {i : IVec} (h : inGrid g.dims i = true) {a : Fin 3} (h0 : 0 < i a)
    (h1 : i a < (axisCells g.dims a : ℤ) - 1) :
    g.interiorAxis i a =
      some ((storedAt g.data (moveTo i a (i a + 1)) - storedAt g.data (moveTo i a (i a - 1))) * (1 / (2 * g.s))) := by
  unfold SDFGrid.interiorAxis
  rw [get_inGrid g (moveTo_inGrid h (by omega) (by omega)), get_inGrid g (moveTo_inGrid h (by omega) (by omega))]
  rfl

theorem edge_axis {g : SDFGrid K} (hs : 0 < g.s) {i : IVec} (h : inGrid g.dims i = true) {a : Fin 3} :
    ∃ lo hi : ℤ, 0 ≤ lo ∧ lo ≤ hi ∧ hi < axisCells g.dims a ∧ (lo = hi ↔ axisCells g.dims a = 1) ∧
      g.edgeAxis i a = some (if axisCells g.dims a = 1 then 0 else
        (storedAt g.data (moveTo i a hi) - storedAt g.data (moveTo i a lo)) * (1 / (((hi - lo : ℤ) : K) * g.s))) := by
  have hi := inGrid_axis.1 h a
  refine ⟨max 0 (i a - 1), min ((axisCells g.dims a : ℤ) - 1) (i a + 1), by omega, by omega, by omega, by omega, ?_⟩
  unfold SDFGrid.edgeAxis
  dsimp only
  by_cases h1 : axisCells g.dims a = 1
  · rw [if_pos h1, if_neg]
    have : min ((axisCells g.dims a : ℤ) - 1) (i a + 1) - max 0 (i a - 1) = 0 := by omega
    rw [this]; simp
  · rw [if_neg h1, if_pos, get_inGrid g (moveTo_inGrid h (by omega) (by omega)),
      get_inGrid g (moveTo_inGrid h (by omega) (by omega))]
    · rfl
    · have : (0 : ℤ) < min ((axisCells g.dims a : ℤ) - 1) (i a + 1) - max 0 (i a - 1) := by omega
      exact mul_pos (by exact_mod_cast this) hs

theorem coarse_of_grid {g : SDFGrid K} {i : IVec} {edge : Bool} {v : Vec K} (h : g.coarseGrid i edge = some (some v)) :
    ∃ w, g.coarse i edge = some (some w) ∧ IsRotated g.pose.R v w := by
  refine ⟨(g.pose.apply ⟨v, 0⟩).v, ?_, ?_⟩
  · unfold SDFGrid.coarse
    rw [h]
    simp [gradientQuery, Pose.apply]
  · intro a
    simp [Pose.apply]

theorem not_onEdge {d : Dims} {i : IVec} (h : inGrid d i = true) :
    (i 0 > 0 ∧ i 1 > 0 ∧ i 2 > 0 ∧ i 0 < (d.nx : ℤ) - 1 ∧ i 1 < (d.ny : ℤ) - 1 ∧ i 2 < (d.nz : ℤ) - 1) ↔
      ¬ OnEdge (axisCells d) i := by
  have hi := inGrid_axis.1 h
  unfold OnEdge
  constructor
  · rintro ⟨h1, h2, h3, h4, h5, h6⟩ ⟨a, ha⟩
    fin_cases a
    · rcases ha with ha | ha
      · exact absurd ha h1.ne'
      · exact absurd ha h4.ne
    · rcases ha with ha | ha
      · exact absurd ha h2.ne'
      · exact absurd ha h5.ne
    · rcases ha with ha | ha
      · exact absurd ha h3.ne'
      · exact absurd ha h6.ne
  · intro hne
    have hp : ∀ a, 0 < i a ∧ i a < (axisCells d a : ℤ) - 1 := by
      intro a
      have h1 := hi a
      have h2 : ¬ (i a = 0 ∨ i a = (axisCells d a : ℤ) - 1) := fun hh => hne ⟨a, hh⟩
      omega
    exact ⟨(hp 0).1, (hp 1).1, (hp 2).1, (hp 0).2, (hp 1).2, (hp 2).2⟩

/-- Per-axis form of the coarse gradient. -/
theorem coarseGrid_eq {g : SDFGrid K} (hs : 0 < g.s) {i : IVec} (h : inGrid g.dims i = true) {edge : Bool}
    (he : edge = true ∨ ¬ OnEdge (axisCells g.dims) i) :
    ∃ v : Vec K, g.coarseGrid i edge = some (some v) ∧ ∀ a, ∃ lo hi : ℤ, 0 ≤ lo ∧ lo ≤ hi ∧ hi < axisCells g.dims a ∧
      (lo = hi ↔ axisCells g.dims a = 1) ∧ v a = if axisCells g.dims a = 1 then 0 else
        (storedAt g.data (moveTo i a hi) - storedAt g.data (moveTo i a lo)) * (1 / (((hi - lo : ℤ) : K) * g.s)) := by
  unfold SDFGrid.coarseGrid
  rw [if_pos h]
  by_cases hint : i 0 > 0 ∧ i 1 > 0 ∧ i 2 > 0 ∧ i 0 < (g.dims.nx : ℤ) - 1 ∧ i 1 < (g.dims.ny : ℤ) - 1 ∧ i 2 < (g.dims.nz : ℤ) - 1
  · rw [if_pos hint]
    obtain ⟨h1, h2, h3, h4, h5, h6⟩ := hint
    have hp : ∀ a, 0 < i a ∧ i a < (axisCells g.dims a : ℤ) - 1 := by
      intro a; fin_cases a
      · exact ⟨h1, h4⟩
      · exact ⟨h2, h5⟩
      · exact ⟨h3, h6⟩
    rw [interior_axis h (hp 0).1 (hp 0).2, interior_axis h (hp 1).1 (hp 1).2, interior_axis h (hp 2).1 (hp 2).2]
    refine ⟨_, rfl, ?_⟩
    intro a
    have hpa := hp a
    refine ⟨i a - 1, i a + 1, by omega, by omega, by omega, by omega, ?_⟩
    rw [if_neg (by omega)]
    have : ((i a + 1 - (i a - 1) : ℤ) : K) = 2 := by push_cast; ring
    rw [this]
    fin_cases a <;> rfl
  · rw [if_neg hint, if_pos (he.resolve_right fun hh => hint ((not_onEdge h).2 hh))]
    obtain ⟨l0, h0, a1, a2, a3, a4, a5⟩ := edge_axis hs h (a := 0)
    obtain ⟨l1, h1, b1, b2, b3, b4, b5⟩ := edge_axis hs h (a := 1)
    obtain ⟨l2, h2, c1, c2, c3, c4, c5⟩ := edge_axis hs h (a := 2)
    rw [a5, b5, c5]
    refine ⟨_, rfl, ?_⟩
    intro a
    fin_cases a
    · exact ⟨l0, h0, a1, a2, a3, a4, rfl⟩
    · exact ⟨l1, h1, b1, b2, b3, b4, rfl⟩
    · exact ⟨l2, h2, c1, c2, c3, c4, rfl⟩

/-- C17. A coarse gradient exists exactly for cells in the grid that are interior, or on the edge with edge gradients
enabled; the call never throws. -/
theorem C17_availability {g : SDFGrid K} (hs : 0 < g.s) (i : IVec) (edge : Bool) :
    (CellInGrid (axisCells g.dims) i ∧ (edge = true ∨ ¬ OnEdge (axisCells g.dims) i) → ∃ v, g.coarse i edge = some (some v)) ∧
    (¬ (CellInGrid (axisCells g.dims) i ∧ (edge = true ∨ ¬ OnEdge (axisCells g.dims) i)) → g.coarse i edge = some none) := by
  constructor
  · rintro ⟨h, he⟩
    obtain ⟨v, hv, _⟩ := coarseGrid_eq hs (inGrid_axis.2 h) he
    obtain ⟨w, hw, _⟩ := coarse_of_grid hv
    exact ⟨w, hw⟩
  · intro h
    have : g.coarseGrid i edge = some none := by
      unfold SDFGrid.coarseGrid
      split_ifs with h1 h2 h3
      · exact absurd ⟨inGrid_axis.1 h1, Or.inr ((not_onEdge h1).1 h2)⟩ h
      · exact absurd ⟨inGrid_axis.1 h1, Or.inl h3⟩ h
      · rfl
      · rfl
    unfold SDFGrid.coarse
    rw [this]; rfl

theorem moveTo_centre (s : K) (i : IVec) (a : Fin 3) (k : ℤ) (b : Fin 3) :
    cellCentre s (moveTo i a k) b = if b = a then (k : K) * s + s / 2 else cellCentre s i b := by
  unfold cellCentre moveTo
  by_cases hb : b = a
  · subst hb; simp
  · simp [hb]

/-- C17. If the stored distances are samples of an affine function of space with gradient `m` in grid frame (and no
slope along an axis with a single cell), the coarse gradient of every cell that has one is exactly that gradient,
rotated to the world frame. -/
theorem C17_affine_exact {g : SDFGrid K} (hs : 0 < g.s) {c0 : K} {m : Vec K}
    (hdata : ∀ c, CellInGrid (axisCells g.dims) c →
      storedAt g.data c = c0 + m 0 * cellCentre g.s c 0 + m 1 * cellCentre g.s c 1 + m 2 * cellCentre g.s c 2)
    (hm : ∀ a, axisCells g.dims a = 1 → m a = 0) {i : IVec} {edge : Bool} (hi : CellInGrid (axisCells g.dims) i)
    (he : edge = true ∨ ¬ OnEdge (axisCells g.dims) i) :
    ∃ w, g.coarse i edge = some (some w) ∧ IsRotated g.pose.R m w := by
  obtain ⟨v, hv, hax⟩ := coarseGrid_eq hs (inGrid_axis.2 hi) he
  obtain ⟨w, hw, hrot⟩ := coarse_of_grid hv
  have hvm : v = m := by
    funext a
    obtain ⟨lo, hh, h0, hle, h1, heq, hva⟩ := hax a
    rw [hva]
    by_cases h1a : axisCells g.dims a = 1
    · rw [if_pos h1a, hm a h1a]
    · rw [if_neg h1a, hdata _ (inGrid_axis.1 (moveTo_inGrid (inGrid_axis.2 hi) (by omega) h1)),
        hdata _ (inGrid_axis.1 (moveTo_inGrid (inGrid_axis.2 hi) h0 (by omega)))]
      have hlt : lo < hh := lt_of_le_of_ne hle fun e => h1a (heq.1 e)
      have hpos : (0 : K) < (hh : K) - lo := by
        have : (lo : K) < hh := by exact_mod_cast hlt
        linarith
      have hne := hpos.ne'
      have hs' := hs.ne'
      simp only [moveTo_centre]
      have key : ∀ x : K, ((c0 + m 0 * x) - (c0 + m 0 * x)) = 0 := fun x => by ring
      fin_cases a <;> (simp; field_simp; ring)
  exact ⟨w, hw, hvm ▸ hrot⟩

/-- C17. Whatever the data, a gradient has no component along a grid axis that has only one cell. -/
theorem C17_single_cell_axis {g : SDFGrid K} (hs : 0 < g.s) {i : IVec} (hi : CellInGrid (axisCells g.dims) i) :
    ∃ v w, g.coarse i true = some (some w) ∧ IsRotated g.pose.R v w ∧ ∀ a, axisCells g.dims a = 1 → v a = 0 := by
  obtain ⟨v, hv, hax⟩ := coarseGrid_eq hs (inGrid_axis.2 hi) (Or.inl rfl)
  obtain ⟨w, hw, hrot⟩ := coarse_of_grid hv
  refine ⟨v, w, hw, hrot, ?_⟩
  intro a ha
  obtain ⟨lo, hh, h0, hle, h1, heq, hva⟩ := hax a
  rw [hva, if_pos ha]

/-! ### C18 -/

theorem fineAxis_cases (g : SDFGrid K) (hs : 0 < g.s) (hP : Orthogonal g.pose.R) (p : Vec K) (h : K) (a : Fin 3) :
    ∃ c m q : Option K, g.estimate (point4 p) = some c ∧ g.estimateMoved p a (-h) = some m ∧
      g.estimateMoved p a h = some q ∧ g.fineAxis p h a = axisFine c m q (p a) (p a - h) (p a + h) := by
  obtain ⟨c, hc⟩ := estimate_some g hs (point4 p)
  obtain ⟨m, hm⟩ := estimate_some g hs (point4 (Function.update p a (p a + -h)))
  obtain ⟨q, hq⟩ := estimate_some g hs (point4 (Function.update p a (p a + h)))
  refine ⟨c, m, q, hc, hm, hq, ?_⟩
  unfold SDFGrid.fineAxis SDFGrid.estimateMoved
  rw [hc, hm, hq]

/-- The world point is in the grid. -/
def Spec.WorldIn (n : Fin 3 → ℕ) (s : K) (R : Fin 3 → Fin 3 → K) (t p : Fin 3 → K) : Prop :=
  ∃ q, InFrame R t q p ∧ InGridBox n s q

theorem exists_frame {P : Pose K} (hP : Orthogonal P.R) (p : Vec K) : ∃ q, InFrame P.R P.t q p := by
  refine ⟨(P.applyInv (point4 p)).v, ?_⟩
  intro a
  have := congrArg (fun x : Vec4 K => x.v a) (apply_applyInv P hP (point4 p))
  unfold Pose.apply at this
  simp only [point4, mul_one] at this
  rw [← this]
  simp [Pose.applyInv, point4]

theorem estimate_isSome {g : SDFGrid K} (hs : 0 < g.s) (hP : Orthogonal g.pose.R) {p : Vec K} {r : Option K}
    (h : g.estimate (point4 p) = some r) :
    r.isSome = true ↔ WorldIn (axisCells g.dims) g.s g.pose.R g.pose.t p := by
  obtain ⟨q, hq⟩ := exists_frame hP p
  obtain ⟨h1, h2⟩ := C15_defined_in_grid hs hP hq
  constructor
  · intro hr
    by_contra hn
    have := h2 fun hb => hn ⟨q, hq, hb⟩
    rw [this] at h
    cases h
    simp at hr
  · rintro ⟨q', hq', hb⟩
    obtain ⟨v, hv⟩ := (C15_defined_in_grid hs hP hq').1 hb
    rw [hv] at h
    cases h
    rfl

theorem indexOf_worldIn {g : SDFGrid K} (hs : 0 < g.s) (hP : Orthogonal g.pose.R) {p : Vec K} :
    inGrid g.dims (g.indexOf (point4 p)) = true ↔ WorldIn (axisCells g.dims) g.s g.pose.R g.pose.t p := by
  constructor
  · intro h
    obtain ⟨q, hq⟩ := exists_frame hP p
    refine ⟨q, hq, ?_⟩
    unfold SDFGrid.indexOf at h
    rw [applyInv_frame hP hq] at h
    exact (inGridBox_iff hs q).1 h
  · rintro ⟨q, hq, hb⟩
    unfold SDFGrid.indexOf
    rw [applyInv_frame hP hq]
    exact (inGridBox_iff hs q).2 hb

/-- The point moved by `h` along world axis `a`. -/
def Spec.moved (p : Fin 3 → K) (a : Fin 3) (h : K) : Fin 3 → K := Function.update p a (p a + h)

theorem fine3_throws (x y z : Fine K) (hx : x ≠ .empty) (hy : y ≠ .empty) (hz : z ≠ .empty) :
    fine3 x y z = .throws ↔ (x = .throws ∨ y = .throws ∨ z = .throws) := by
  cases x <;> cases y <;> cases z <;> simp_all [fine3]

theorem axisFine_ne_empty (c m q : Option K) (x y z : K) : axisFine c m q x y z ≠ .empty := by
  unfold axisFine fineDiv
  cases c <;> cases m <;> cases q <;> simp <;> split_ifs <;> simp

theorem axisFine_throws (c m q : Option K) (x y z : K) (hc : c.isSome = true) :
    axisFine c m q x y z = .throws ↔ (m.isSome = false ∧ q.isSome = false) := by
  unfold axisFine fineDiv
  cases c <;> cases m <;> cases q <;> simp at hc ⊢ <;> split_ifs <;> simp

/-- C18. The fine gradient is empty outside the grid; inside it throws exactly if, for some axis, both sample points
are outside the grid. -/
theorem C18_throws_iff {g : SDFGrid K} (hs : 0 < g.s) (hP : Orthogonal g.pose.R) (p : Vec K) (window : K) :
    (¬ WorldIn (axisCells g.dims) g.s g.pose.R g.pose.t p → g.fine p window = .empty) ∧
    (WorldIn (axisCells g.dims) g.s g.pose.R g.pose.t p →
      (g.fine p window = .throws ↔ ∃ a, ¬ WorldIn (axisCells g.dims) g.s g.pose.R g.pose.t (moved p a (-|window|)) ∧
        ¬ WorldIn (axisCells g.dims) g.s g.pose.R g.pose.t (moved p a |window|))) := by
  constructor
  · intro h
    unfold SDFGrid.fine
    rw [if_neg]
    rw [indexOf_worldIn hs hP]; exact h
  · intro h
    unfold SDFGrid.fine
    rw [if_pos ((indexOf_worldIn hs hP).2 h)]
    have hax : ∀ a, g.fineAxis p |window| a ≠ .empty ∧ (g.fineAxis p |window| a = .throws ↔
        ¬ WorldIn (axisCells g.dims) g.s g.pose.R g.pose.t (moved p a (-|window|)) ∧
        ¬ WorldIn (axisCells g.dims) g.s g.pose.R g.pose.t (moved p a |window|)) := by
      intro a
      obtain ⟨c, m, q, hc, hm, hq, he⟩ := fineAxis_cases g hs hP p |window| a
      rw [he]
      refine ⟨axisFine_ne_empty _ _ _ _ _ _, ?_⟩
      rw [axisFine_throws _ _ _ _ _ _ ((estimate_isSome hs hP hc).2 h)]
      unfold moved
      rw [← estimate_isSome hs hP hm, ← estimate_isSome hs hP hq]
      simp
    rw [fine3_throws _ _ _ (hax 0).1 (hax 1).1 (hax 2).1, (hax 0).2, (hax 1).2, (hax 2).2]
    constructor
    · rintro (h | h | h)
      · exact ⟨0, h⟩
      · exact ⟨1, h⟩
      · exact ⟨2, h⟩
    · rintro ⟨a, ha⟩
      fin_cases a
      · exact Or.inl ha
      · exact Or.inr (Or.inl ha)
      · exact Or.inr (Or.inr ha)

theorem fineAxis_affine {g : SDFGrid K} (hs : 0 < g.s) (hP : Orthogonal g.pose.R) {F : Vec K → K}
    (hF : ∀ p, WorldIn (axisCells g.dims) g.s g.pose.R g.pose.t p → g.estimate (point4 p) = some (some (F p)))
    {G : Vec K} (hG : ∀ p a h, F (moved p a h) = F p + G a * h) {p : Vec K} {h : K} (hh : h ≠ 0) {a : Fin 3}
    (hp : WorldIn (axisCells g.dims) g.s g.pose.R g.pose.t p) (hnt : g.fineAxis p h a ≠ .throws) :
    g.fineAxis p h a = .value (G a) := by
  obtain ⟨c, m, q, hc, hm, hq, he⟩ := fineAxis_cases g hs hP p h a
  have hcv : c = some (F p) := by rw [hF p hp] at hc; exact (Option.some.inj hc).symm
  have hmv : m = none ∨ m = some (F p + G a * (-h)) := by
    cases m with
    | none => exact Or.inl rfl
    | some v =>
      right
      have hw := (estimate_isSome hs hP hm).1 rfl
      unfold SDFGrid.estimateMoved at hm
      rw [hF _ hw] at hm
      rw [← hG p a (-h)]
      exact (Option.some.inj hm).symm
  have hqv : q = none ∨ q = some (F p + G a * h) := by
    cases q with
    | none => exact Or.inl rfl
    | some v =>
      right
      have hw := (estimate_isSome hs hP hq).1 rfl
      unfold SDFGrid.estimateMoved at hq
      rw [hF _ hw] at hq
      rw [← hG p a h]
      exact (Option.some.inj hq).symm
  rw [he] at hnt ⊢
  subst hcv
  rcases hmv with rfl | rfl <;> rcases hqv with rfl | rfl
  · exact absurd rfl hnt
  · simp only [axisFine, fineDiv]
    rw [if_neg (by simpa using hh)]
    congr 1; rw [div_eq_iff (by simpa using hh)]; ring
  · simp only [axisFine, fineDiv]
    rw [if_neg (by simpa using hh)]
    congr 1; rw [div_eq_iff (by simpa using hh)]; ring
  · simp only [axisFine, fineDiv]
    have h2 : p a + h - (p a - h) = 2 * h := by ring
    rw [h2, if_neg (by simpa using hh)]
    congr 1; field_simp; ring

/-- C18. If the interpolated distance is affine over the grid with world-frame slope `G`, the fine gradient (with a
non-zero window that leaves a sample point on some side of every axis) is exactly `G`, also at the edge of the grid. -/
theorem C18_affine_exact {g : SDFGrid K} (hs : 0 < g.s) (hP : Orthogonal g.pose.R) {c0 : K} {G : Vec K}
    (hF : ∀ p, WorldIn (axisCells g.dims) g.s g.pose.R g.pose.t p →
      g.estimate (point4 p) = some (some (c0 + G 0 * p 0 + G 1 * p 1 + G 2 * p 2)))
    {p : Vec K} {window : K} (hw : window ≠ 0) (hp : WorldIn (axisCells g.dims) g.s g.pose.R g.pose.t p)
    (hside : ∀ a, WorldIn (axisCells g.dims) g.s g.pose.R g.pose.t (moved p a (-|window|)) ∨
      WorldIn (axisCells g.dims) g.s g.pose.R g.pose.t (moved p a |window|)) :
    g.fine p window = .value G := by
  have hG : ∀ (p : Vec K) a h, (fun p : Vec K => c0 + G 0 * p 0 + G 1 * p 1 + G 2 * p 2) (moved p a h) =
      (fun p : Vec K => c0 + G 0 * p 0 + G 1 * p 1 + G 2 * p 2) p + G a * h := by
    intro p a h
    simp only [moved]
    fin_cases a <;> simp [Function.update] <;> ring
  have hnt : g.fine p window ≠ .throws := by
    intro h
    obtain ⟨a, h1, h2⟩ := ((C18_throws_iff hs hP p window).2 hp).1 h
    exact (hside a).elim h1 h2
  have hin := (indexOf_worldIn (g := g) hs hP).2 hp
  unfold SDFGrid.fine at hnt ⊢
  rw [if_pos hin] at hnt ⊢
  have hne : ∀ a, g.fineAxis p |window| a ≠ .empty := by
    intro a
    obtain ⟨c, m, q, hc, hm, hq, he⟩ := fineAxis_cases g hs hP p |window| a
    rw [he]; exact axisFine_ne_empty _ _ _ _ _ _
  rw [Ne, fine3_throws _ _ _ (hne 0) (hne 1) (hne 2)] at hnt
  push Not at hnt
  have hw' : |window| ≠ 0 := abs_ne_zero.2 hw
  rw [fineAxis_affine hs hP hF hG hw' hp hnt.1, fineAxis_affine hs hP hF hG hw' hp hnt.2.1,
    fineAxis_affine hs hP hF hG hw' hp hnt.2.2]
  simp only [fine3]
  congr 1
  funext a
  fin_cases a <;> rfl

/-- C18. A zero window gives a not-a-number gradient at every location in the grid. -/
theorem C18_zero_window_nan {g : SDFGrid K} (hs : 0 < g.s) (hP : Orthogonal g.pose.R) {p : Vec K}
    (hp : WorldIn (axisCells g.dims) g.s g.pose.R g.pose.t p) : g.fine p 0 = .nan := by
  unfold SDFGrid.fine
  rw [if_pos ((indexOf_worldIn hs hP).2 hp)]
  have hax : ∀ a, g.fineAxis p |(0 : K)| a = .nan := by
    intro a
    obtain ⟨c, m, q, hc, hm, hq, he⟩ := fineAxis_cases g hs hP p |(0 : K)| a
    have hsame : ∀ h : K, h = 0 → Function.update p a (p a + h) = p := by
      intro h hh; rw [hh, add_zero, Function.update_eq_self]
    unfold SDFGrid.estimateMoved at hm hq
    rw [hsame _ (by simp)] at hm hq
    rw [hc] at hm hq
    obtain ⟨v, hv⟩ := Option.isSome_iff_exists.1 ((estimate_isSome hs hP hc).2 hp)
    cases hm; cases hq
    rw [he, hv]
    simp [axisFine, fineDiv]
  rw [hax 0, hax 1, hax 2]
  rfl

end

/-! ### Concrete cases -/

/-- A 2×3×1 field, turned by 90 degrees, with cells of edge 1/2 and stored distances affine in the cell. -/
def exAffine : SDFGrid ℚ where
  dims := ⟨2, 3, 1⟩
  s := 1 / 2
  pose := ⟨![![0, -1, 0], ![1, 0, 0], ![0, 0, 1]], ![10, 20, 30]⟩
  data := fun i => 1 + (i.1 : ℚ) / 2 - (i.2.1 : ℚ) / 4

theorem exAffine_orth : Orthogonal exAffine.pose.R := by
  unfold Orthogonal exAffine
  decide +kernel

theorem exAffine_data {c : IVec} (hc : CellInGrid (axisCells exAffine.dims) c) :
    storedAt exAffine.data c = 7 / 8 + 1 * cellCentre exAffine.s c 0 + -(1 / 2) * cellCentre exAffine.s c 1 +
      0 * cellCentre exAffine.s c 2 := by
  have h0 := hc 0
  have h1 := hc 1
  unfold storedAt exAffine cellCentre
  have e : ∀ b, 0 ≤ c b → (((c b).toNat : ℕ) : ℚ) = (c b : ℚ) := by
    intro b hb
    exact_mod_cast congrArg (Int.cast : ℤ → ℚ) (Int.toNat_of_nonneg hb)
  dsimp only
  rw [e 0 h0.1, e 1 h1.1]
  ring

/-- The hypotheses of `C17_affine_exact` with slope (1, -1/2, 0) in grid frame, and the result at an edge cell: slope
(1/2, 1, 0) in world frame; without edge gradients there is none. -/
example : (∃ w, exAffine.coarse ![1, 2, 0] true = some (some w) ∧ IsRotated exAffine.pose.R ![1, -(1 / 2), 0] w) ∧
    exAffine.coarse ![1, 2, 0] true = some (some ![1 / 2, 1, 0]) ∧ exAffine.coarse ![1, 2, 0] false = some none :=
  ⟨C17_affine_exact (c0 := 7 / 8) (m := ![1, -(1 / 2), 0]) (by decide +kernel) (fun _ hc => exAffine_data hc)
    (by decide +kernel) (by unfold CellInGrid; decide +kernel) (Or.inl rfl), by decide +kernel, by decide +kernel⟩

/-- The estimate of that field is affine in world coordinates. -/
theorem exAffine_estimate (p : Vec ℚ)
    (hp : WorldIn (axisCells exAffine.dims) exAffine.s exAffine.pose.R exAffine.pose.t p) :
    exAffine.estimate (point4 p) =
      some (some (-(195 / 8) + (![1 / 2, 1, 0] : Vec ℚ) 0 * p 0 + (![1 / 2, 1, 0] : Vec ℚ) 1 * p 1 + (![1 / 2, 1, 0] : Vec ℚ) 2 * p 2)) := by
  obtain ⟨q, hq, hb⟩ := hp
  rw [estimate_affine (by decide +kernel) exAffine_orth hq hb (c0 := 5 / 8) (m := ![1, -(1 / 2), 0]) (by decide +kernel)]
  · have h0 := hq 0
    have h1 := hq 1
    simp [exAffine] at h0 h1
    simp
    rw [h0, h1]; ring
  · intro c hc
    have := exAffine_data hc
    unfold storedAt at this
    have hpos : 0 ≤ exAffine.data ((c 0).toNat, (c 1).toNat, (c 2).toNat) := by
      have h0 := hc 0
      have h1 := hc 1
      unfold exAffine axisCells at h1
      simp at h1
      unfold exAffine
      dsimp only
      have : ((c 1).toNat : ℚ) ≤ 2 := by exact_mod_cast (by omega : (c 1).toNat ≤ 2)
      have h3 : (0 : ℚ) ≤ ((c 0).toNat : ℚ) := by positivity
      linarith
    unfold boundaryDist
    rw [if_pos hpos, this]
    simp
    have : exAffine.s = 1 / 2 := rfl
    rw [this]; norm_num; ring

/-- Fine gradient near the low edge of the grid, where only one side of each axis is available: (1/2, 1, 0); with
a larger window neither side of the z axis is in the grid and the call throws. -/
example : exAffine.fine ![10 - 1 / 8, 20 + 1 / 8, 30 + 1 / 8] (1 / 8) = .value ![1 / 2, 1, 0] ∧
    exAffine.fine ![10 - 1 / 8, 20 + 1 / 8, 30 + 1 / 8] (1 / 2) = .throws := by
  refine ⟨?_, by decide +kernel⟩
  refine C18_affine_exact (by decide +kernel) exAffine_orth exAffine_estimate (by norm_num) ?_ ?_
  · exact ⟨![1 / 8, 1 / 8, 1 / 8], by unfold InFrame; decide +kernel, by unfold InGridBox; decide +kernel⟩
  · intro a
    right
    fin_cases a
    · exact ⟨![1 / 8, 0, 1 / 8], by unfold InFrame moved; decide +kernel, by unfold InGridBox; decide +kernel⟩
    · exact ⟨![1 / 4, 1 / 8, 1 / 8], by unfold InFrame moved; decide +kernel, by unfold InGridBox; decide +kernel⟩
    · exact ⟨![1 / 8, 1 / 8, 1 / 4], by unfold InFrame moved; decide +kernel, by unfold InGridBox; decide +kernel⟩

/-- C18, negative part: the header says the samples are taken at plus and minus half of the window; the code takes them
at plus and minus the whole window, which gives a different gradient on a field that is not affine. -/
theorem C18_window_is_doubled :
    ∃ (g : SDFGrid ℚ) (p : Vec ℚ) (w lo hi : ℚ) (v : Vec ℚ), 0 < g.s ∧ 0 < w ∧
      g.estimate (point4 (moved p 0 (-(w / 2)))) = some (some lo) ∧ g.estimate (point4 (moved p 0 (w / 2))) = some (some hi) ∧
      g.fine p w = .value v ∧ v 0 ≠ (hi - lo) / w := by
  refine ⟨⟨⟨4, 2, 2⟩, 1, ⟨![![1, 0, 0], ![0, 1, 0], ![0, 0, 1]], ![0, 0, 0]⟩,
    fun i => if i.1 = 0 then 1 else if i.1 = 1 then 2 else 4⟩, ![7 / 4, 1, 1], 1 / 2, 3 / 2, 5 / 2, ![7 / 4, 0, 0], ?_⟩
  decide +kernel

end VGT
