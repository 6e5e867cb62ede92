import Verif.Model.Rasterize
import Verif.Spec.Rasterize
import Mathlib.Tactic.Linarith
import Mathlib.Tactic.LinearCombination
import Mathlib.Tactic.FieldSimp
import Mathlib.Tactic.Positivity
import Mathlib.Tactic.FinCases

/-!
Geometry of mesh rasterization: closest points on segments and triangles.
-/
set_option autoImplicit false
set_option linter.unusedSectionVars false

namespace VGT
open VGT.EDT VGT.Spec

section
variable {K : Type} [Field K] [LinearOrder K] [IsStrictOrderedRing K]

theorem sqNorm_nonneg (a : Vec K) : 0 ≤ sqNorm a := by
  unfold sqNorm dot3
  nlinarith [mul_self_nonneg (a 0), mul_self_nonneg (a 1), mul_self_nonneg (a 2)]

theorem sqNorm_eq_zero {a : Vec K} (h : sqNorm a = 0) : ∀ i, a i = 0 := by
  unfold sqNorm dot3 at h
  have h0 := mul_self_nonneg (a 0)
  have h1 := mul_self_nonneg (a 1)
  have h2 := mul_self_nonneg (a 2)
  have e0 : a 0 = 0 := mul_self_eq_zero.mp (by linarith)
  have e1 : a 1 = 0 := mul_self_eq_zero.mp (by linarith)
  have e2 : a 2 = 0 := mul_self_eq_zero.mp (by linarith)
  intro i
  fin_cases i
  · exact e0
  · exact e1
  · exact e2

theorem sqNorm_vsub (p q : Vec K) : sqNorm (vsub p q) = sqDistance p q := by
  unfold sqNorm dot3 vsub sqDistance; ring

/-- The code's normal of a proper triangle is not zero. -/
theorem normal_pos {v1 v2 v3 : Vec K} (h : ProperTriangle v1 v2 v3) :
    0 < sqNorm (cross3 (vsub v2 v1) (vsub v3 v1)) := by
  rcases (sqNorm_nonneg (cross3 (vsub v2 v1) (vsub v3 v1))).lt_or_eq with hp | hz
  · exact hp
  · exfalso
    have hc := sqNorm_eq_zero hz.symm
    have c0 : (v2 1 - v1 1) * (v3 2 - v1 2) - (v2 2 - v1 2) * (v3 1 - v1 1) = 0 := by simpa [cross3, vsub] using hc 0
    have c1 : (v2 2 - v1 2) * (v3 0 - v1 0) - (v2 0 - v1 0) * (v3 2 - v1 2) = 0 := by simpa [cross3, vsub] using hc 1
    have c2 : (v2 0 - v1 0) * (v3 1 - v1 1) - (v2 1 - v1 1) * (v3 0 - v1 0) = 0 := by simpa [cross3, vsub] using hc 2
    have key : ∀ i : Fin 3, v3 i - v1 i = 0 ∧ -(v2 i - v1 i) = 0 := by
      intro i
      refine h _ _ ?_
      intro a
      fin_cases i <;> fin_cases a <;> simp <;> linarith
    obtain ⟨h1, -⟩ := h 1 0 (by
      intro a
      have := (key a).2
      linarith)
    exact one_ne_zero h1

/-! ### Barycentric coordinates -/

/-- Weighted side test of the edge `a b`. -/
def sideOf (n a b q : Vec K) : K := dot3 n (cross3 (vsub b a) (vsub q a))

theorem sameSide12 (v1 v2 v3 q : Vec K) :
    sameSide v1 v2 v3 q = decide (0 ≤ sideOf (cross3 (vsub v2 v1) (vsub v3 v1)) v1 v2 q) := rfl

theorem sameSide23 (v1 v2 v3 q : Vec K) :
    sameSide v2 v3 v1 q = decide (0 ≤ sideOf (cross3 (vsub v2 v1) (vsub v3 v1)) v2 v3 q) := by
  have : cross3 (vsub v3 v2) (vsub v1 v2) = cross3 (vsub v2 v1) (vsub v3 v1) := by
    funext i; fin_cases i <;> simp [cross3, vsub] <;> ring
  simp only [sameSide, sideOf, this]
  rfl

theorem sameSide31 (v1 v2 v3 q : Vec K) :
    sameSide v3 v1 v2 q = decide (0 ≤ sideOf (cross3 (vsub v2 v1) (vsub v3 v1)) v3 v1 q) := by
  have : cross3 (vsub v1 v3) (vsub v2 v3) = cross3 (vsub v2 v1) (vsub v3 v1) := by
    funext i; fin_cases i <;> simp [cross3, vsub] <;> ring
  simp only [sameSide, sideOf, this]
  rfl

theorem projectsInside_iff (v1 v2 v3 q : Vec K) : projectsInside v1 v2 v3 q = true ↔
    (0 ≤ sideOf (cross3 (vsub v2 v1) (vsub v3 v1)) v1 v2 q ∧ 0 ≤ sideOf (cross3 (vsub v2 v1) (vsub v3 v1)) v2 v3 q) ∧
      0 ≤ sideOf (cross3 (vsub v2 v1) (vsub v3 v1)) v3 v1 q := by
  rw [projectsInside, sameSide12, sameSide23 v1 v2 v3, sameSide31 v1 v2 v3]
  simp

theorem sides_sum (v1 v2 v3 q : Vec K) :
    let n := cross3 (vsub v2 v1) (vsub v3 v1)
    sideOf n v2 v3 q + sideOf n v3 v1 q + sideOf n v1 v2 q = sqNorm n := by
  simp [sideOf, sqNorm, dot3, cross3, vsub]
  ring

/-- The foot of the perpendicular, scaled: the barycentric combination. -/
theorem foot_bary (v1 v2 v3 q : Vec K) (a : Fin 3) :
    let n := cross3 (vsub v2 v1) (vsub v3 v1)
    sideOf n v2 v3 q * v1 a + sideOf n v3 v1 q * v2 a + sideOf n v1 v2 q * v3 a
      = sqNorm n * q a - n a * dot3 n (vsub q v1) := by
  fin_cases a <;> simp [sideOf, sqNorm, dot3, cross3, vsub] <;> ring

/-- The foot of the perpendicular as the code computes it. -/
def foot (v1 v2 v3 q : Vec K) : Vec K := vadd v1 (vectorRejection (cross3 (vsub v2 v1) (vsub v3 v1)) (vsub q v1))

theorem foot_apply (v1 v2 v3 q : Vec K) (a : Fin 3) :
    let n := cross3 (vsub v2 v1) (vsub v3 v1)
    foot v1 v2 v3 q a = q a - n a * (dot3 n (vsub q v1) / sqNorm n) := by
  intro n
  have : foot v1 v2 v3 q a = v1 a + ((q a - v1 a) - n a * (dot3 n (vsub q v1) / sqNorm n)) := rfl
  rw [this]; ring

theorem foot_eq {v1 v2 v3 : Vec K} (h : ProperTriangle v1 v2 v3) (q : Vec K) (a : Fin 3) :
    let n := cross3 (vsub v2 v1) (vsub v3 v1)
    foot v1 v2 v3 q a
      = sideOf n v2 v3 q / sqNorm n * v1 a + sideOf n v3 v1 q / sqNorm n * v2 a + sideOf n v1 v2 q / sqNorm n * v3 a := by
  intro n
  have hn : sqNorm n ≠ 0 := ne_of_gt (normal_pos h)
  have hb := foot_bary v1 v2 v3 q a
  have hf := foot_apply v1 v2 v3 q a
  change _ = q a - n a * (dot3 n (vsub q v1) / sqNorm n) at hf
  change sideOf n v2 v3 q * v1 a + sideOf n v3 v1 q * v2 a + sideOf n v1 v2 q * v3 a
      = sqNorm n * q a - n a * dot3 n (vsub q v1) at hb
  rw [hf]
  generalize dot3 n (vsub q v1) = k at *
  generalize sqNorm n = N at *
  field_simp
  linarith

theorem normal_perp2 (v1 v2 v3 : Vec K) : dot3 (cross3 (vsub v2 v1) (vsub v3 v1)) (vsub v2 v1) = 0 := by
  simp [dot3, cross3, vsub]; ring

theorem normal_perp3 (v1 v2 v3 : Vec K) : dot3 (cross3 (vsub v2 v1) (vsub v3 v1)) (vsub v3 v1) = 0 := by
  simp [dot3, cross3, vsub]; ring

theorem normal_perp_plane {v1 v2 v3 p f : Vec K} {x y z x' y' z' : K} (hs : x + y + z = 1) (hs' : x' + y' + z' = 1)
    (hp : ∀ a, p a = x * v1 a + y * v2 a + z * v3 a) (hf : ∀ a, f a = x' * v1 a + y' * v2 a + z' * v3 a) :
    dot3 (cross3 (vsub v2 v1) (vsub v3 v1)) (vsub p f) = 0 := by
  have hx : x = 1 - y - z := by linarith
  have hx' : x' = 1 - y' - z' := by linarith
  have e : ∀ a, vsub p f a = (y - y') * vsub v2 v1 a + (z - z') * vsub v3 v1 a := by
    intro a; simp only [vsub, hp, hf, hx, hx']; ring
  have h2 := normal_perp2 v1 v2 v3
  have h3 := normal_perp3 v1 v2 v3
  generalize cross3 (vsub v2 v1) (vsub v3 v1) = n at *
  unfold dot3 at *
  rw [e 0, e 1, e 2]
  linear_combination (y - y') * h2 + (z - z') * h3

/-- Pythagoras: distances from `q` to points of the plane of the triangle, through the foot. -/
theorem foot_pythagoras {v1 v2 v3 : Vec K} (h : ProperTriangle v1 v2 v3) (q : Vec K) {p : Vec K} {x y z : K}
    (hs : x + y + z = 1) (hp : ∀ a, p a = x * v1 a + y * v2 a + z * v3 a) :
    sqDistance p q = sqDistance p (foot v1 v2 v3 q) + sqDistance (foot v1 v2 v3 q) q := by
  have hn : sqNorm (cross3 (vsub v2 v1) (vsub v3 v1)) ≠ 0 := ne_of_gt (normal_pos h)
  have hsum := sides_sum v1 v2 v3 q
  simp only at hsum
  have hperp := normal_perp_plane (f := foot v1 v2 v3 q) hs (by rw [← add_div, ← add_div, hsum, div_self hn]) hp
    (foot_eq h q)
  have hf := foot_apply v1 v2 v3 q
  simp only at hf
  generalize dot3 (cross3 (vsub v2 v1) (vsub v3 v1)) (vsub q v1) / sqNorm (cross3 (vsub v2 v1) (vsub v3 v1)) = k at hf
  generalize foot v1 v2 v3 q = f at *
  generalize cross3 (vsub v2 v1) (vsub v3 v1) = n at *
  have q0 : q 0 = f 0 + n 0 * k := by linarith [hf 0]
  have q1 : q 1 = f 1 + n 1 * k := by linarith [hf 1]
  have q2 : q 2 = f 2 + n 2 * k := by linarith [hf 2]
  unfold sqDistance
  simp only [dot3, vsub] at hperp
  rw [q0, q1, q2]
  linear_combination -2 * k * hperp

theorem sqDistance_nonneg (p q : Vec K) : 0 ≤ sqDistance p q := by unfold sqDistance; positivity

/-- If the code finds that the point projects inside, the point it computes is the closest point of the triangle. -/
theorem foot_isClosest {v1 v2 v3 : Vec K} (h : ProperTriangle v1 v2 v3) {q : Vec K}
    (hin : projectsInside v1 v2 v3 q = true) : IsClosest (OnTriangle v1 v2 v3) q (foot v1 v2 v3 q) := by
  have hpos := normal_pos h
  have hsum := sides_sum v1 v2 v3 q
  rw [projectsInside_iff] at hin
  obtain ⟨⟨h12, h23⟩, h31⟩ := hin
  refine ⟨⟨_, _, _, div_nonneg h23 hpos.le, div_nonneg h31 hpos.le, div_nonneg h12 hpos.le, ?_, foot_eq h q⟩, ?_⟩
  · rw [← add_div, ← add_div]
    simp only at hsum
    rw [hsum, div_self (ne_of_gt hpos)]
  · rintro p ⟨x, y, z, -, -, -, hs, hp⟩
    rw [foot_pythagoras h q hs hp]
    linarith [sqDistance_nonneg p (foot v1 v2 v3 q)]

/-! ### Segments -/

/-- The point lies on the segment. -/
def OnSegment (a b p : Vec K) : Prop := ∃ t : K, 0 ≤ t ∧ t ≤ 1 ∧ ∀ i, p i = a i + (b i - a i) * t

theorem clampTo_mem (x : K) : 0 ≤ clampTo x 0 1 ∧ clampTo x 0 1 ≤ 1 := by
  unfold clampTo
  split_ifs with h1 h2
  · exact ⟨zero_le_one, le_refl _⟩
  · exact ⟨le_refl _, zero_le_one⟩
  · exact ⟨not_lt.mp h2, not_lt.mp h1⟩

theorem closestOnSegment_on (a b q : Vec K) : OnSegment a b (closestOnSegment a b q) := by
  obtain ⟨h0, h1⟩ := clampTo_mem (dot3 (vsub b a) (vsub q a) / sqNorm (vsub b a))
  exact ⟨_, h0, h1, fun i => by simp [closestOnSegment, vadd, vscale, vsub]⟩

theorem sq_clamp_le {r t : K} (h0 : 0 ≤ t) (h1 : t ≤ 1) : (clampTo r 0 1 - r) ^ 2 ≤ (t - r) ^ 2 := by
  unfold clampTo
  split_ifs with h h'
  · nlinarith
  · nlinarith
  · nlinarith [sq_nonneg (t - r)]

theorem closestOnSegment_le (a b q : Vec K) {p : Vec K} (hp : OnSegment a b p) :
    sqDistance (closestOnSegment a b q) q ≤ sqDistance p q := by
  obtain ⟨t, h0, h1, hp⟩ := hp
  rcases (sqNorm_nonneg (vsub b a)).lt_or_eq with hpos | hz
  · have hr : dot3 (vsub b a) (vsub q a) / sqNorm (vsub b a) * sqNorm (vsub b a) = dot3 (vsub b a) (vsub q a) :=
      div_mul_cancel₀ _ (ne_of_gt hpos)
    have hc : ∀ i, closestOnSegment a b q i
        = a i + (b i - a i) * clampTo (dot3 (vsub b a) (vsub q a) / sqNorm (vsub b a)) 0 1 := fun i => by
      simp [closestOnSegment, vadd, vscale, vsub]
    have hle := sq_clamp_le (r := dot3 (vsub b a) (vsub q a) / sqNorm (vsub b a)) h0 h1
    generalize dot3 (vsub b a) (vsub q a) / sqNorm (vsub b a) = r at *
    generalize clampTo r 0 1 = c at *
    have hexp : ∀ (w : Vec K) (τ : K), (∀ i, w i = a i + (b i - a i) * τ) →
        sqDistance w q = sqNorm (vsub b a) * (τ - r) ^ 2 + (sqDistance a q - sqNorm (vsub b a) * r ^ 2) := by
      intro w τ hw
      simp only [sqDistance, hw, sqNorm, dot3, vsub] at *
      linear_combination (2 * τ) * hr
    rw [hexp _ c hc, hexp p t hp]
    have := mul_le_mul_of_nonneg_left hle hpos.le
    linarith
  · have hz' := sqNorm_eq_zero hz.symm
    have e : ∀ i, b i - a i = 0 := hz'
    have : sqDistance (closestOnSegment a b q) q = sqDistance p q := by
      simp only [sqDistance, closestOnSegment, vadd, vscale, hp]
      simp only [vsub, e]; ring
    exact this.le

theorem onTriangle_of_seg12 {v1 v2 v3 p : Vec K} (h : OnSegment v1 v2 p) : OnTriangle v1 v2 v3 p := by
  obtain ⟨t, h0, h1, hp⟩ := h
  exact ⟨1 - t, t, 0, by linarith, h0, le_refl _, by ring, fun a => by rw [hp]; ring⟩

theorem onTriangle_of_seg23 {v1 v2 v3 p : Vec K} (h : OnSegment v2 v3 p) : OnTriangle v1 v2 v3 p := by
  obtain ⟨t, h0, h1, hp⟩ := h
  exact ⟨0, 1 - t, t, le_refl _, by linarith, h0, by ring, fun a => by rw [hp]; ring⟩

theorem onTriangle_of_seg31 {v1 v2 v3 p : Vec K} (h : OnSegment v3 v1 p) : OnTriangle v1 v2 v3 p := by
  obtain ⟨t, h0, h1, hp⟩ := h
  exact ⟨t, 0, 1 - t, h0, le_refl _, by linarith, by ring, fun a => by rw [hp]; ring⟩

theorem seg12_of_bary {v1 v2 v3 p : Vec K} {x y z : K} (hx : 0 ≤ x) (hy : 0 ≤ y) (hz : z = 0) (hs : x + y + z = 1)
    (hp : ∀ a, p a = x * v1 a + y * v2 a + z * v3 a) : OnSegment v1 v2 p :=
  ⟨y, hy, by linarith, fun i => by rw [hp, hz, show x = 1 - y by linarith]; ring⟩

theorem seg23_of_bary {v1 v2 v3 p : Vec K} {x y z : K} (hx : x = 0) (hy : 0 ≤ y) (hz : 0 ≤ z) (hs : x + y + z = 1)
    (hp : ∀ a, p a = x * v1 a + y * v2 a + z * v3 a) : OnSegment v2 v3 p :=
  ⟨z, hz, by linarith, fun i => by rw [hp, hx, show y = 1 - z by linarith]; ring⟩

theorem seg31_of_bary {v1 v2 v3 p : Vec K} {x y z : K} (hx : 0 ≤ x) (hy : y = 0) (hz : 0 ≤ z) (hs : x + y + z = 1)
    (hp : ∀ a, p a = x * v1 a + y * v2 a + z * v3 a) : OnSegment v3 v1 p :=
  ⟨x, hx, by linarith, fun i => by rw [hp, hy, show z = 1 - x by linarith]; ring⟩

/-- Moving from a point of the standard simplex towards a point of its plane outside it, one reaches the boundary. -/
theorem simplex_exit {x y z x' y' z' : K} (hx : 0 ≤ x) (hy : 0 ≤ y) (hz : 0 ≤ z)
    (hout : x' < 0 ∨ y' < 0 ∨ z' < 0) :
    ∃ t : K, 0 ≤ t ∧ t ≤ 1 ∧ 0 ≤ x + t * (x' - x) ∧ 0 ≤ y + t * (y' - y) ∧ 0 ≤ z + t * (z' - z) ∧
      (x + t * (x' - x) = 0 ∨ y + t * (y' - y) = 0 ∨ z + t * (z' - z) = 0) := by
  -- exit parameter of one coordinate: 1 if the target is not negative
  have one : ∀ u u' : K, 0 ≤ u → ∃ t : K, 0 ≤ t ∧ t ≤ 1 ∧ (∀ t', 0 ≤ t' → t' ≤ t → 0 ≤ u + t' * (u' - u)) ∧
      (u' < 0 → u + t * (u' - u) = 0) ∧ (¬ u' < 0 → t = 1) := by
    intro u u' hu
    rcases lt_or_ge u' 0 with hneg | hnn
    · have hd : 0 < u - u' := by linarith
      refine ⟨u / (u - u'), div_nonneg hu hd.le, (div_le_one hd).mpr (by linarith), ?_, fun _ => ?_,
        fun h => absurd hneg h⟩
      · intro t' _ ht'
        have := (le_div_iff₀ hd).mp ht'
        linarith
      · have : u / (u - u') * (u - u') = u := div_mul_cancel₀ _ (ne_of_gt hd)
        linarith
    · refine ⟨1, zero_le_one, le_refl _, ?_, fun h => absurd h (not_lt.mpr hnn), fun _ => rfl⟩
      intro t' h0 h1
      have : u + t' * (u' - u) = (1 - t') * u + t' * u' := by ring
      rw [this]
      have := mul_nonneg (show 0 ≤ 1 - t' by linarith) hu
      have := mul_nonneg h0 hnn
      linarith
  obtain ⟨tx, hx0, hx1, hxin, hxz, hxo⟩ := one x x' hx
  obtain ⟨ty, hy0, hy1, hyin, hyz, hyo⟩ := one y y' hy
  obtain ⟨tz, hz0, hz1, hzin, hzz, hzo⟩ := one z z' hz
  have hall : ∀ t, 0 ≤ t → t ≤ tx → t ≤ ty → t ≤ tz →
      0 ≤ x + t * (x' - x) ∧ 0 ≤ y + t * (y' - y) ∧ 0 ≤ z + t * (z' - z) :=
    fun t h0 h1 h2 h3 => ⟨hxin t h0 h1, hyin t h0 h2, hzin t h0 h3⟩
  have fin : ∀ t, 0 ≤ t → t ≤ 1 → t ≤ tx → t ≤ ty → t ≤ tz →
      ((x' < 0 ∧ t = tx) ∨ (y' < 0 ∧ t = ty) ∨ (z' < 0 ∧ t = tz)) → ∃ t : K, 0 ≤ t ∧ t ≤ 1 ∧
      0 ≤ x + t * (x' - x) ∧ 0 ≤ y + t * (y' - y) ∧ 0 ≤ z + t * (z' - z) ∧
      (x + t * (x' - x) = 0 ∨ y + t * (y' - y) = 0 ∨ z + t * (z' - z) = 0) := by
    intro t h0 h1 h2 h3 h4 hneg
    obtain ⟨a, b, c⟩ := hall t h0 h2 h3 h4
    refine ⟨t, h0, h1, a, b, c, ?_⟩
    rcases hneg with ⟨hn, rfl⟩ | ⟨hn, rfl⟩ | ⟨hn, rfl⟩
    · exact Or.inl (hxz hn)
    · exact Or.inr (Or.inl (hyz hn))
    · exact Or.inr (Or.inr (hzz hn))
  have allone : ∀ t, t = 1 → t ≤ tx → t ≤ ty → t ≤ tz → 
      ((x' < 0 ∧ t = tx) ∨ (y' < 0 ∧ t = ty) ∨ (z' < 0 ∧ t = tz)) := by
    intro t ht h1 h2 h3
    rcases hout with h | h | h
    · exact Or.inl ⟨h, le_antisymm h1 (by linarith)⟩
    · exact Or.inr (Or.inl ⟨h, le_antisymm h2 (by linarith)⟩)
    · exact Or.inr (Or.inr ⟨h, le_antisymm h3 (by linarith)⟩)
  rcases le_total tx ty with hxy | hxy
  · rcases le_total tx tz with hxz' | hxz'
    · refine fin tx hx0 hx1 le_rfl hxy hxz' ?_
      by_cases hn : x' < 0
      · exact Or.inl ⟨hn, rfl⟩
      · exact allone tx (hxo hn) le_rfl hxy hxz'
    · refine fin tz hz0 hz1 hxz' (le_trans hxz' hxy) le_rfl ?_
      by_cases hn : z' < 0
      · exact Or.inr (Or.inr ⟨hn, rfl⟩)
      · exact allone tz (hzo hn) hxz' (le_trans hxz' hxy) le_rfl
  · rcases le_total ty tz with hyz' | hyz'
    · refine fin ty hy0 hy1 hxy le_rfl hyz' ?_
      by_cases hn : y' < 0
      · exact Or.inr (Or.inl ⟨hn, rfl⟩)
      · exact allone ty (hyo hn) hxy le_rfl hyz'
    · refine fin tz hz0 hz1 (le_trans hyz' hxy) hyz' le_rfl ?_
      by_cases hn : z' < 0
      · exact Or.inr (Or.inr ⟨hn, rfl⟩)
      · exact allone tz (hzo hn) (le_trans hyz' hxy) hyz' le_rfl

/-- If the code finds that the point does not project inside, some boundary point is as close as any given point of the
triangle. -/
theorem boundary_as_close {v1 v2 v3 : Vec K} (h : ProperTriangle v1 v2 v3) {q : Vec K}
    (hout : projectsInside v1 v2 v3 q = false) {p : Vec K} (hp : OnTriangle v1 v2 v3 p) :
    ∃ b, (OnSegment v1 v2 b ∨ OnSegment v2 v3 b ∨ OnSegment v3 v1 b) ∧ sqDistance b q ≤ sqDistance p q := by
  have hpos := normal_pos h
  have hsum := sides_sum v1 v2 v3 q
  simp only at hsum
  have hneg : sideOf (cross3 (vsub v2 v1) (vsub v3 v1)) v2 v3 q / sqNorm (cross3 (vsub v2 v1) (vsub v3 v1)) < 0 ∨
      sideOf (cross3 (vsub v2 v1) (vsub v3 v1)) v3 v1 q / sqNorm (cross3 (vsub v2 v1) (vsub v3 v1)) < 0 ∨
      sideOf (cross3 (vsub v2 v1) (vsub v3 v1)) v1 v2 q / sqNorm (cross3 (vsub v2 v1) (vsub v3 v1)) < 0 := by
    by_contra hc
    push Not at hc
    obtain ⟨h1, h2, h3⟩ := hc
    have g1 := mul_nonneg h1 hpos.le
    rw [div_mul_cancel₀ _ (ne_of_gt hpos)] at g1
    have g2 := mul_nonneg h2 hpos.le
    rw [div_mul_cancel₀ _ (ne_of_gt hpos)] at g2
    have g3 := mul_nonneg h3 hpos.le
    rw [div_mul_cancel₀ _ (ne_of_gt hpos)] at g3
    have : projectsInside v1 v2 v3 q = true := by
      rw [projectsInside_iff]
      exact ⟨⟨by assumption, by assumption⟩, by assumption⟩
    rw [hout] at this
    exact Bool.false_ne_true this
  obtain ⟨x, y, z, hx, hy, hz, hs, hpp⟩ := hp
  have hf := foot_eq h q
  simp only at hf
  have hfs : sideOf (cross3 (vsub v2 v1) (vsub v3 v1)) v2 v3 q / sqNorm (cross3 (vsub v2 v1) (vsub v3 v1)) +
      sideOf (cross3 (vsub v2 v1) (vsub v3 v1)) v3 v1 q / sqNorm (cross3 (vsub v2 v1) (vsub v3 v1)) +
      sideOf (cross3 (vsub v2 v1) (vsub v3 v1)) v1 v2 q / sqNorm (cross3 (vsub v2 v1) (vsub v3 v1)) = 1 := by
    rw [← add_div, ← add_div, hsum, div_self (ne_of_gt hpos)]
  have hpyth := fun (w : Vec K) (a b c : K) (hs : a + b + c = 1) hw => foot_pythagoras h q (p := w) (x := a) (y := b) (z := c) hs hw
  generalize sideOf (cross3 (vsub v2 v1) (vsub v3 v1)) v2 v3 q / sqNorm (cross3 (vsub v2 v1) (vsub v3 v1)) = x' at *
  generalize sideOf (cross3 (vsub v2 v1) (vsub v3 v1)) v3 v1 q / sqNorm (cross3 (vsub v2 v1) (vsub v3 v1)) = y' at *
  generalize sideOf (cross3 (vsub v2 v1) (vsub v3 v1)) v1 v2 q / sqNorm (cross3 (vsub v2 v1) (vsub v3 v1)) = z' at *
  obtain ⟨t, ht0, ht1, hx1, hy1, hz1, hzero⟩ := simplex_exit hx hy hz hneg
  have hs1 : (x + t * (x' - x)) + (y + t * (y' - y)) + (z + t * (z' - z)) = 1 := by
    linear_combination (1 - t) * hs + t * hfs
  let b : Vec K := fun a => (x + t * (x' - x)) * v1 a + (y + t * (y' - y)) * v2 a + (z + t * (z' - z)) * v3 a
  have hbp : ∀ a, b a = p a + t * (foot v1 v2 v3 q a - p a) := by
    intro a; simp only [b, hpp, hf]; ring
  refine ⟨b, ?_, ?_⟩
  · rcases hzero with h0 | h0 | h0
    · exact Or.inr (Or.inl (seg23_of_bary h0 hy1 hz1 hs1 fun _ => rfl))
    · exact Or.inr (Or.inr (seg31_of_bary hx1 h0 hz1 hs1 fun _ => rfl))
    · exact Or.inl (seg12_of_bary hx1 hy1 h0 hs1 fun _ => rfl)
  · rw [hpyth b _ _ _ hs1 fun _ => rfl, hpyth p _ _ _ hs hpp]
    have : sqDistance b (foot v1 v2 v3 q) = (1 - t) ^ 2 * sqDistance p (foot v1 v2 v3 q) := by
      simp only [sqDistance, hbp]; ring
    rw [this]
    have h1 : (1 - t) ^ 2 ≤ 1 := by nlinarith
    have := mul_le_mul_of_nonneg_right h1 (sqDistance_nonneg p (foot v1 v2 v3 q))
    linarith

/-- Whatever the key, the chosen candidate is one of the three. -/
theorem pickCandidate_cases (key : Vec K → K) (a b c : Vec K) :
    pickCandidate key a b c = a ∨ pickCandidate key a b c = b ∨ pickCandidate key a b c = c := by
  unfold pickCandidate; split_ifs <;> simp

/-- The chosen candidate has the smallest key. -/
theorem pickCandidate_min (key : Vec K → K) (a b c : Vec K) :
    key (pickCandidate key a b c) ≤ key a ∧ key (pickCandidate key a b c) ≤ key b ∧
      key (pickCandidate key a b c) ≤ key c := by
  unfold pickCandidate
  split_ifs with h1 h2
  · exact ⟨le_rfl, h1.1, h1.2⟩
  · exact ⟨h2.1, le_rfl, h2.2⟩
  · rcases le_total (key a) (key b) with hab | hab
    · have hca : key c ≤ key a := by
        by_contra hc
        exact h1 ⟨hab, (not_le.mp hc).le⟩
      exact ⟨hca, hca.trans hab, le_rfl⟩
    · have hcb : key c ≤ key b := by
        by_contra hc
        exact h2 ⟨hab, (not_le.mp hc).le⟩
      exact ⟨hcb.trans hab, hcb, le_rfl⟩

/-- Whatever the key, the computed point lies on the triangle. -/
theorem closestBy_onTriangle (key : Vec K → K) {v1 v2 v3 : Vec K} (h : ProperTriangle v1 v2 v3) (q : Vec K) :
    OnTriangle v1 v2 v3 (closestOnTriangleBy key v1 v2 v3 (cross3 (vsub v2 v1) (vsub v3 v1)) q) := by
  unfold closestOnTriangleBy
  split_ifs with hin
  · exact (foot_isClosest h hin).1
  · rcases pickCandidate_cases key (closestOnSegment v1 v2 q) (closestOnSegment v2 v3 q) (closestOnSegment v3 v1 q)
      with e | e | e <;> rw [e]
    · exact onTriangle_of_seg12 (closestOnSegment_on _ _ _)
    · exact onTriangle_of_seg23 (closestOnSegment_on _ _ _)
    · exact onTriangle_of_seg31 (closestOnSegment_on _ _ _)

/-- If the chosen candidate is the nearest of the three, the computed point is the closest point of the triangle. -/
theorem closestBy_isClosest (key : Vec K → K) {v1 v2 v3 : Vec K} (h : ProperTriangle v1 v2 v3) (q : Vec K)
    (hkey : projectsInside v1 v2 v3 q = false →
      ∀ c, (c = closestOnSegment v1 v2 q ∨ c = closestOnSegment v2 v3 q ∨ c = closestOnSegment v3 v1 q) →
        sqDistance (pickCandidate key (closestOnSegment v1 v2 q) (closestOnSegment v2 v3 q) (closestOnSegment v3 v1 q)) q
          ≤ sqDistance c q) :
    IsClosest (OnTriangle v1 v2 v3) q (closestOnTriangleBy key v1 v2 v3 (cross3 (vsub v2 v1) (vsub v3 v1)) q) := by
  refine ⟨closestBy_onTriangle key h q, ?_⟩
  intro p hp
  unfold closestOnTriangleBy
  split_ifs with hin
  · exact (foot_isClosest h hin).2 p hp
  · have hin' : projectsInside v1 v2 v3 q = false := by simpa using hin
    obtain ⟨b, hb, hle⟩ := boundary_as_close h hin' hp
    refine le_trans ?_ hle
    rcases hb with hb | hb | hb
    · exact (hkey hin' _ (Or.inl rfl)).trans (closestOnSegment_le _ _ _ hb)
    · exact (hkey hin' _ (Or.inr (Or.inl rfl))).trans (closestOnSegment_le _ _ _ hb)
    · exact (hkey hin' _ (Or.inr (Or.inr rfl))).trans (closestOnSegment_le _ _ _ hb)

end
end VGT
