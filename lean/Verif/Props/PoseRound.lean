import Verif.Model.PoseFloat
import Verif.Props.GradientFloat
import Verif.Props.MeshField
import Verif.Props.NamedField

/-!
C83: how far the location a field answers for is from the location asked for, when the inverse of the pose is computed, stored and
applied with rounding, and the stored rotation is not exactly orthogonal.
-/
set_option autoImplicit false

namespace VGT
open VGT.EDT VGT.Spec

section
variable {r : ℝ → ℝ} {u η : ℝ}

/-- The exact sum of the products. -/
noncomputable def dotSum (l : List (ℝ × ℝ)) : ℝ := (l.map fun p => p.1 * p.2).sum

/-- The sum of their sizes. -/
noncomputable def dotSize (l : List (ℝ × ℝ)) : ℝ := (l.map fun p => |p.1 * p.2|).sum

theorem dotSize_nonneg (l : List (ℝ × ℝ)) : 0 ≤ dotSize l := by
  apply List.sum_nonneg
  intro x hx
  obtain ⟨p, -, rfl⟩ := List.mem_map.1 hx
  exact abs_nonneg _

theorem abs_dotSum_le (l : List (ℝ × ℝ)) : |dotSum l| ≤ dotSize l := by
  induction l with
  | nil => simp [dotSum, dotSize]
  | cons p l ih =>
    simp only [dotSum, dotSize, List.map_cons, List.sum_cons] at *
    exact (abs_add_le _ _).trans (by linarith)

theorem dotSum_append (l l' : List (ℝ × ℝ)) : dotSum (l ++ l') = dotSum l + dotSum l' := by simp [dotSum]

theorem dotSize_append (l l' : List (ℝ × ℝ)) : dotSize (l ++ l') = dotSize l + dotSize l' := by simp [dotSize]

theorem round_sum_error {A A' P P' Q S S' v v' m m' : ℝ} (herr : ∀ x, |r x - x| ≤ u * |x| + η) (hu : 0 ≤ u) (hη : 0 ≤ η)
    (hA : 0 ≤ A) (hA' : 0 ≤ A') (hS : |S| ≤ A) (hS' : |S'| ≤ A') (hm : 0 ≤ m) (hm' : 0 ≤ m') (hPQ : P * (1 + u) ≤ Q)
    (hPQ' : P' * (1 + u) ≤ Q) (hQ : 1 ≤ Q) (h : |v - S| ≤ (P - 1) * A + m * P * η) (h' : |v' - S'| ≤ (P' - 1) * A' + m' * P' * η) :
    |r (v + v') - (S + S')| ≤ (Q - 1) * (A + A') + (m + m' + 1) * Q * η := by
  have e := herr (v + v')
  have hv : |v + v'| ≤ |v - S| + |v' - S'| + (A + A') := by
    have : v + v' = (v - S) + (v' - S') + (S + S') := by ring
    rw [this]
    refine (abs_add_le _ _).trans (add_le_add (abs_add_le _ _) ((abs_add_le _ _).trans (by linarith)))
  have ht : |r (v + v') - (S + S')| ≤ |r (v + v') - (v + v')| + (|v - S| + |v' - S'|) := by
    have : r (v + v') - (S + S') = (r (v + v') - (v + v')) + ((v - S) + (v' - S')) := by ring
    rw [this]
    exact (abs_add_le _ _).trans (by gcongr; exact abs_add_le _ _)
  have h1 := mul_le_mul_of_nonneg_left hv hu
  generalize |v - S| = d at *
  generalize |v' - S'| = d' at *
  have h2 := mul_le_mul_of_nonneg_left h (by linarith : 0 ≤ 1 + u)
  have h3 := mul_le_mul_of_nonneg_left h' (by linarith : 0 ≤ 1 + u)
  have h4 := mul_le_mul_of_nonneg_right hPQ hA
  have h5 := mul_le_mul_of_nonneg_right hPQ' hA'
  have h6 := mul_le_mul_of_nonneg_right hPQ (mul_nonneg hm hη)
  have h7 := mul_le_mul_of_nonneg_right hPQ' (mul_nonneg hm' hη)
  have h8 := mul_le_mul_of_nonneg_right hQ hη
  nlinarith

/-- The error of a rounded sum of products, whatever the order. -/
theorem DotRuns.error (herr : ∀ x, |r x - x| ≤ u * |x| + η) (hu : 0 ≤ u) (hη : 0 ≤ η) {l : List (ℝ × ℝ)} {v : ℝ}
    (h : DotRuns r l v) : 1 ≤ l.length ∧
      |v - dotSum l| ≤ ((1 + u) ^ l.length - 1) * dotSize l + (2 * l.length - 1) * (1 + u) ^ l.length * η := by
  have one_le : ∀ n : ℕ, (1 : ℝ) ≤ (1 + u) ^ n := fun n => one_le_pow₀ (by linarith)
  have step : ∀ {n n' : ℕ}, 1 ≤ n' → (1 + u) ^ n * (1 + u) ≤ (1 + u) ^ (n + n') := fun {n n'} h => by
    rw [← pow_succ]
    exact pow_le_pow_right₀ (by linarith) (by omega)
  induction h with
  | one a b =>
    refine ⟨by simp, ?_⟩
    have := herr (a * b)
    simp only [dotSum, dotSize, List.map_cons, List.map_nil, List.sum_cons, List.sum_nil, add_zero, List.length_cons, List.length_nil,
      zero_add, pow_one, Nat.cast_one]
    nlinarith
  | @add l l' v v' _ _ ih ih' =>
    refine ⟨by rw [List.length_append]; omega, ?_⟩
    have hn : (1 : ℝ) ≤ l.length := by exact_mod_cast ih.1
    have hn' : (1 : ℝ) ≤ l'.length := by exact_mod_cast ih'.1
    rw [dotSum_append, dotSize_append, List.length_append]
    refine (round_sum_error herr hu hη (dotSize_nonneg l) (dotSize_nonneg l') (abs_dotSum_le l) (abs_dotSum_le l')
      (by linarith) (by linarith) (step ih'.1) ?_ (one_le _) ih.2 ih'.2).trans_eq ?_
    · rw [add_comm l.length]; exact step ih.1
    · push_cast; ring
  | @fma l v a b _ ih =>
    refine ⟨by rw [List.length_append]; omega, ?_⟩
    have hn : (1 : ℝ) ≤ l.length := by exact_mod_cast ih.1
    rw [dotSum_append, dotSize_append, List.length_append]
    have h0 : |a * b - dotSum [(a, b)]| ≤ (1 - 1) * dotSize [(a, b)] + 0 * 1 * η := by simp [dotSum]
    refine (round_sum_error herr hu hη (dotSize_nonneg l) (dotSize_nonneg _) (abs_dotSum_le l) (abs_dotSum_le _)
      (by linarith) le_rfl (step (le_refl 1)) ?_ (one_le _) ih.2 h0).trans ?_
    · rw [one_mul, pow_add]
      refine le_trans ?_ (le_mul_of_one_le_left (by positivity) (one_le _))
      simp
    · have := mul_nonneg (zero_le_one.trans (one_le (l.length + [(a, b)].length))) hη
      push_cast [List.length_cons, List.length_nil] at *
      nlinarith
  | @perm l l' v hp _ ih =>
    have e1 : dotSum l = dotSum l' := (hp.map _).sum_eq
    have e2 : dotSize l = dotSize l' := (hp.map _).sum_eq
    rw [← hp.length_eq, ← e1, ← e2]
    exact ih

theorem product_bound {a b A B : ℝ} (ha : |a| ≤ A) (hb : |b| ≤ B) : |a * b| ≤ A * B := by
  rw [abs_mul]
  exact mul_le_mul ha hb (abs_nonneg _) ((abs_nonneg _).trans ha)

/-- The translation of the stored inverse. -/
theorem InverseRuns.error (herr : ∀ x, |r x - x| ≤ u * |x| + η) (hu : 0 ≤ u) (hu1 : u ≤ 1 / 1000) (hη : 0 ≤ η) {P inv : Pose ℝ} {X : ℝ}
    (hS : ∀ k a, |P.R k a| ≤ 1001 / 1000) (h : InverseRuns r P inv) (ht : ∀ a, |P.t a| ≤ X) (hηX : η ≤ u * X) (a : Fin 3) :
    |inv.t a - (-P.R 0 a * P.t 0 + (-P.R 1 a * P.t 1 + -P.R 2 a * P.t 2))| ≤ 18 * (u * X) := by
  have e2 := (h.2 a).error herr hu hη |>.2
  simp only [dotSum, dotSize, List.map_cons, List.map_nil, List.sum_cons, List.sum_nil, List.length_cons, List.length_nil, add_zero,
    zero_add] at e2
  norm_num only at e2
  have hX0 : 0 ≤ X := (abs_nonneg _).trans (ht 0)
  have p3 : (1 + u) ^ 3 ≤ 1 + 4 * u := by nlinarith [mul_nonneg hu hu, mul_nonneg hu (mul_nonneg hu hu)]
  have p30 : 1 ≤ (1 + u) ^ 3 := one_le_pow₀ (by linarith)
  have huX : 0 ≤ u * X := mul_nonneg hu hX0
  have A2 := fun k => product_bound (by rw [abs_neg]; exact hS k a : |-P.R k a| ≤ 1001 / 1000) (ht k)
  refine e2.trans ?_
  have s : |-P.R 0 a * P.t 0| + (|-P.R 1 a * P.t 1| + |-P.R 2 a * P.t 2|) ≤ 3003 / 1000 * X := by
    have := A2 0; have := A2 1; have := A2 2; linarith
  have t1 := mul_le_mul (by linarith : (1 + u) ^ 3 - 1 ≤ 4 * u) s (by positivity) (by linarith)
  have t2 := mul_le_mul (by linarith : 5 * (1 + u) ^ 3 ≤ 5 * (1 + 4 / 1000)) hηX hη (by norm_num)
  linarith

theorem stored_entry {S R : Fin 3 → Fin 3 → ℝ} {δ : ℝ} (hR : Orthogonal R) (hδ : ∀ a b, |S a b - R a b| ≤ δ) (hδ1 : δ ≤ 1 / 1000)
    (k a : Fin 3) : |S k a| ≤ 1001 / 1000 := by
  have h1 := hδ k a
  have h2 := orthogonal_entry hR k a
  have : S k a = (S k a - R k a) + R k a := by ring
  rw [this]
  exact (abs_add_le _ _).trans (by linarith)

/-- One coordinate of a location in the frame of the grid. -/
theorem toGrid_error (herr : ∀ x, |r x - x| ≤ u * |x| + η) (hu : 0 ≤ u) (hu1 : u ≤ 1 / 1000) (hη : 0 ≤ η)
    {P : Pose ℝ} {R : Fin 3 → Fin 3 → ℝ} (hR : Orthogonal R) {δ X : ℝ} (hδ : ∀ a b, |P.R a b - R a b| ≤ δ) (hδ1 : δ ≤ 1 / 1000)
    {toGrid : Vec4 ℝ → Fin 3 → ℝ} (h : ToGridRuns r P toGrid) {x : Fin 3 → ℝ} (hx : ∀ a, |x a| ≤ X) (ht : ∀ a, |P.t a| ≤ X)
    (hηX : η ≤ u * X) (a : Fin 3) :
    |toGrid (point4 x) a - (R 0 a * (x 0 - P.t 0) + R 1 a * (x 1 - P.t 1) + R 2 a * (x 2 - P.t 2))| ≤ (64 * u + 6 * δ) * X := by
  obtain ⟨inv, ⟨hi, hit⟩, happ⟩ := h
  have hX0 : 0 ≤ X := (abs_nonneg _).trans (hx 0)
  have hS := stored_entry hR hδ hδ1
  have e1 := (happ (point4 x) a).error herr hu hη |>.2
  simp only [dotSum, dotSize, List.map_cons, List.map_nil, List.sum_cons, List.sum_nil, List.length_cons, List.length_nil, hi, point4,
    mul_one, add_zero, zero_add] at e1
  norm_num only at e1
  have p4 : (1 + u) ^ 4 ≤ 1 + 5 * u := by nlinarith [mul_nonneg hu hu, mul_nonneg hu (mul_nonneg hu hu)]
  have p3 : (1 + u) ^ 3 ≤ 1 + 4 * u := by nlinarith [mul_nonneg hu hu, mul_nonneg hu (mul_nonneg hu hu)]
  have p30 : 1 ≤ (1 + u) ^ 3 := one_le_pow₀ (by linarith)
  have p40 : 1 ≤ (1 + u) ^ 4 := one_le_pow₀ (by linarith)
  have A1 := fun k => product_bound (hS k a) (hx k)
  have A2 := fun k => product_bound (by rw [abs_neg]; exact hS k a : |-P.R k a| ≤ 1001 / 1000) (ht k)
  have D1 := fun k => product_bound (hδ k a) (hx k)
  have D2 := fun k => product_bound (hδ k a) (ht k)
  have huX : 0 ≤ u * X := mul_nonneg hu hX0
  have huX1 : u * X ≤ 1 / 1000 * X := mul_le_mul_of_nonneg_right hu1 hX0
  have b2 := InverseRuns.error herr hu hu1 hη hS ⟨hi, hit⟩ ht hηX a
  have b3 : |inv.t a| ≤ 31 / 10 * X := by
    have s : |-P.R 0 a * P.t 0 + (-P.R 1 a * P.t 1 + -P.R 2 a * P.t 2)| ≤ 3003 / 1000 * X := by
      refine (abs_add_le _ _).trans ((add_le_add_right (abs_add_le _ _) _).trans ?_)
      have := A2 0; have := A2 1; have := A2 2; linarith
    have : inv.t a = (inv.t a - (-P.R 0 a * P.t 0 + (-P.R 1 a * P.t 1 + -P.R 2 a * P.t 2))) +
        (-P.R 0 a * P.t 0 + (-P.R 1 a * P.t 1 + -P.R 2 a * P.t 2)) := by ring
    rw [this]
    exact (abs_add_le _ _).trans (by linarith)
  have b1 : |toGrid ⟨x, 1⟩ a - (P.R 0 a * x 0 + (P.R 1 a * x 1 + (P.R 2 a * x 2 + inv.t a)))| ≤ 40 * (u * X) := by
    refine e1.trans ?_
    have s : |P.R 0 a * x 0| + (|P.R 1 a * x 1| + (|P.R 2 a * x 2| + |inv.t a|)) ≤ 62 / 10 * X := by
      have := A1 0; have := A1 1; have := A1 2; linarith
    have t1 := mul_le_mul (by linarith : (1 + u) ^ 4 - 1 ≤ 5 * u) s (by positivity) (by linarith)
    have t2 := mul_le_mul (by linarith : 7 * (1 + u) ^ 4 ≤ 7 * (1 + 5 / 1000)) hηX hη (by norm_num)
    linarith
  have b4 : |(P.R 0 a - R 0 a) * x 0 + (P.R 1 a - R 1 a) * x 1 + (P.R 2 a - R 2 a) * x 2 -
      ((P.R 0 a - R 0 a) * P.t 0 + (P.R 1 a - R 1 a) * P.t 1 + (P.R 2 a - R 2 a) * P.t 2)| ≤ 6 * (δ * X) := by
    refine (abs_sub _ _).trans ((add_le_add (abs_add_three _ _ _) (abs_add_three _ _ _)).trans ?_)
    have := D1 0; have := D1 1; have := D1 2; have := D2 0; have := D2 1; have := D2 2; linarith
  change |toGrid ⟨x, 1⟩ a - _| ≤ _
  have : toGrid ⟨x, 1⟩ a - (R 0 a * (x 0 - P.t 0) + R 1 a * (x 1 - P.t 1) + R 2 a * (x 2 - P.t 2)) =
      (toGrid ⟨x, 1⟩ a - (P.R 0 a * x 0 + (P.R 1 a * x 1 + (P.R 2 a * x 2 + inv.t a)))) +
      (inv.t a - (-P.R 0 a * P.t 0 + (-P.R 1 a * P.t 1 + -P.R 2 a * P.t 2))) +
      ((P.R 0 a - R 0 a) * x 0 + (P.R 1 a - R 1 a) * x 1 + (P.R 2 a - R 2 a) * x 2 -
      ((P.R 0 a - R 0 a) * P.t 0 + (P.R 1 a - R 1 a) * P.t 1 + (P.R 2 a - R 2 a) * P.t 2)) := by ring
  rw [this]
  exact (abs_add_three _ _ _).trans (by linarith)

end

section
variable {P : Pose ℝ} {δ X N σ : ℝ} {ro : Rounding} {g F : SDFGrid ℝ} {filled : Idx → Bool} {border : Bool} {norm : (Fin 3 → ℝ) → ℝ}
  {interp : (Fin 3 → ℝ) → (Fin 3 → ℝ) → (Bool → Bool → Bool → ℝ) → (Fin 3 → ℝ) → ℝ}
  {toGrid : Vec4 ℝ → Fin 3 → ℝ} {toWorld rotate : (Fin 3 → ℝ) → Fin 3 → ℝ}

/-- The stored pose `P` of a grid whose true pose is `Q`: same translation, entries of the rotation within `δ`. -/
structure Spec.StoredPose (P Q : Pose ℝ) (δ : ℝ) : Prop where
  trans : P.t = Q.t
  near : ∀ a b, |P.R a b - Q.R a b| ≤ δ
  small : δ ≤ 1 / 1000

/-- The coordinates of a location and of the origin of the grid are at most `X`. -/
structure Spec.WithinWorld (X : ℝ) (t x : Fin 3 → ℝ) : Prop where
  origin : ∀ a, |t a| ≤ X
  place : ∀ a, |x a| ≤ X
  normal : (2 : ℝ) ^ (-1022 : ℤ) ≤ X

/-- Coordinates in the frame of a pose. -/
def Spec.inFrameOf (Q : Pose ℝ) (x : Fin 3 → ℝ) (a : Fin 3) : ℝ :=
  Q.R 0 a * (x 0 - Q.t 0) + Q.R 1 a * (x 1 - Q.t 1) + Q.R 2 a * (x 2 - Q.t 2)

theorem inFrameOf_frame {Q : Pose ℝ} (hQ : Orthogonal Q.R) (x : Fin 3 → ℝ) : InFrame Q.R Q.t (inFrameOf Q x) x := by
  intro a
  have h0 := hQ.2 a 0
  have h1 := hQ.2 a 1
  have h2 := hQ.2 a 2
  unfold inFrameOf
  fin_cases a <;> simp at h0 h1 h2 ⊢ <;>
  linear_combination (-(x 0 - Q.t 0)) * h0 - (x 1 - Q.t 1) * h1 - (x 2 - Q.t 2) * h2

theorem world_eta (h : (2 : ℝ) ^ (-1022 : ℤ) ≤ X) : (2 : ℝ) ^ (-1075 : ℤ) ≤ 2 ^ (-53 : ℤ) * X := by
  calc (2 : ℝ) ^ (-1075 : ℤ) = 2 ^ (-53 : ℤ) * 2 ^ (-1022 : ℤ) := by rw [← zpow_add₀ (by norm_num)]; norm_num
    _ ≤ _ := by gcongr

/-- C83. The computed coordinates of a location in the frame of the grid are within `(2⁻⁴⁷ + 6 δ) X` of the true ones, on each axis, for
every order of the additions and with or without fused operations. -/
theorem C83_coordinate_error (hP : StoredPose P g.pose δ) (hg : Orthogonal g.pose.R) (hrun : ToGridRuns roundDouble P toGrid)
    {x : Fin 3 → ℝ} (hx : WithinWorld X g.pose.t x) (a : Fin 3) :
    |toGrid (point4 x) a - inFrameOf g.pose x a| ≤ (2 ^ (-47 : ℤ) + 6 * δ) * X := by
  have h := toGrid_error double_err.1 (by positivity) (by norm_num) (by positivity) hg hP.near hP.small hrun hx.place
    (by rw [hP.trans]; exact hx.origin) (world_eta hx.normal) a
  rw [hP.trans] at h
  refine h.trans_eq ?_
  norm_num

/-- C83. The place of the computed coordinates is within `(2⁻⁴⁶ + 12 δ) X` of the location. -/
theorem C83_location_error (hP : StoredPose P g.pose δ) (hg : Orthogonal g.pose.R) (hrun : ToGridRuns roundDouble P toGrid)
    {x q : Fin 3 → ℝ} (hx : WithinWorld X g.pose.t x) (hq : InFrame g.pose.R g.pose.t (toGrid (point4 x)) q) :
    dist3 q x ≤ (2 ^ (-46 : ℤ) + 12 * δ) * X := by
  rw [dist3_frame hg hq (inFrameOf_frame hg x)]
  refine (dist3_le_of_coords fun a => C83_coordinate_error hP hg hrun hx a).trans_eq ?_
  norm_num
  ring

/-- C83. The stored inverse itself, applied without rounding, is within `(18/2⁵³ + 6 δ) X` on each axis. -/
theorem C83_stored_inverse {Q inv : Pose ℝ} (hP : StoredPose P Q δ) (hQ : Orthogonal Q.R) (hrun : InverseRuns roundDouble P inv)
    {x : Fin 3 → ℝ} (hx : WithinWorld X Q.t x) (a : Fin 3) :
    |inv.R a 0 * x 0 + inv.R a 1 * x 1 + inv.R a 2 * x 2 + inv.t a - inFrameOf Q x a| ≤ (18 / 2 ^ 53 + 6 * δ) * X := by
  have e := InverseRuns.error double_err.1 (by positivity) (by norm_num) (by positivity) (stored_entry hQ hP.near hP.small) hrun
    (by rw [hP.trans]; exact hx.origin) (world_eta hx.normal) a
  have D1 := fun k => product_bound (hP.near k a) (hx.place k)
  have D2 := fun k => product_bound (hP.near k a) (hx.origin k)
  have b4 : |(P.R 0 a - Q.R 0 a) * x 0 + (P.R 1 a - Q.R 1 a) * x 1 + (P.R 2 a - Q.R 2 a) * x 2 -
      ((P.R 0 a - Q.R 0 a) * Q.t 0 + (P.R 1 a - Q.R 1 a) * Q.t 1 + (P.R 2 a - Q.R 2 a) * Q.t 2)| ≤ 6 * (δ * X) := by
    refine (abs_sub _ _).trans ((add_le_add (abs_add_three _ _ _) (abs_add_three _ _ _)).trans ?_)
    have := D1 0; have := D1 1; have := D1 2; have := D2 0; have := D2 1; have := D2 2; linarith
  rw [hP.trans] at e
  have : inv.R a 0 * x 0 + inv.R a 1 * x 1 + inv.R a 2 * x 2 + inv.t a - inFrameOf Q x a =
      (inv.t a - (-P.R 0 a * Q.t 0 + (-P.R 1 a * Q.t 1 + -P.R 2 a * Q.t 2))) +
      ((P.R 0 a - Q.R 0 a) * x 0 + (P.R 1 a - Q.R 1 a) * x 1 + (P.R 2 a - Q.R 2 a) * x 2 -
      ((P.R 0 a - Q.R 0 a) * Q.t 0 + (P.R 1 a - Q.R 1 a) * Q.t 1 + (P.R 2 a - Q.R 2 a) * Q.t 2)) := by
    rw [hrun.1, hrun.1, hrun.1]; unfold inFrameOf; ring
  rw [this]
  refine (abs_add_le _ _).trans ((add_le_add e b4).trans_eq ?_)
  rw [zpow_neg]; norm_num; ring

theorem margin_kept {A E c v : ℝ} (h : |v - c| ≤ E) : (A + E ≤ c → A ≤ v) ∧ (c ≤ A - E → v ≤ A) := by
  have := abs_le.1 h
  constructor <;> intro _ <;> linarith

theorem frame_place {Q : Pose ℝ} (q : Fin 3 → ℝ) : ∃ p, InFrame Q.R Q.t q p :=
  ⟨fun a => Q.R a 0 * q 0 + Q.R a 1 * q 1 + Q.R a 2 * q 2 + Q.t a, fun _ => rfl⟩

/-- C83. A location whose true coordinates are in the grid by more than the errors has an answer. -/
theorem C83_answer_exists (hP : StoredPose P g.pose δ) (hg : Orthogonal g.pose.R) (hrun : ToGridRuns roundDouble P toGrid)
    (hs : (2 : ℝ) ^ (-100 : ℤ) ≤ g.s) (hs' : g.s ≤ 2 ^ (100 : ℤ)) (h1 : 1 ≤ N) (hN43 : N ≤ 2 ^ 43)
    (hN : ∀ a, (axisCells g.dims a : ℝ) ≤ N) {x : Fin 3 → ℝ} (hx : WithinWorld X g.pose.t x)
    (hin : ∀ a, 5 * (2 ^ (-53 : ℤ) * N) * g.s + (2 ^ (-47 : ℤ) + 6 * δ) * X ≤ inFrameOf g.pose x a ∧
      inFrameOf g.pose x a < (axisCells g.dims a - 5 * (2 ^ (-53 : ℤ) * N)) * g.s - (2 ^ (-47 : ℤ) + 6 * δ) * X) :
    ∃ e', flEstimate (roundedQuery roundDouble norm interp) (g.computed (roundDouble (1 / g.s)) toGrid toWorld rotate) (point4 x) =
      .value e' := by
  have hsb : (2 : ℝ) ^ (-1022 : ℤ) ≤ g.s := le_trans (zpow_le_zpow_right₀ (by norm_num) (by norm_num)) hs
  have hsb' : g.s ≤ (2 : ℝ) ^ (1022 : ℤ) := hs'.trans (zpow_le_zpow_right₀ (by norm_num) (by norm_num))
  have hp : Precise (roundDouble : ℝ → ℝ) (2 ^ (-53 : ℤ)) (2 ^ (-1075 : ℤ)) g.s N := precise_double hsb h1 hN43
  have hsp := hp.s0
  have key : ∀ a, 5 * (2 ^ (-53 : ℤ) * N) * g.s ≤ toGrid (point4 x) a ∧
      toGrid (point4 x) a < (axisCells g.dims a - 5 * (2 ^ (-53 : ℤ) * N)) * g.s := by
    intro a
    have := abs_le.1 (C83_coordinate_error hP hg hrun hx a)
    have := hin a
    constructor <;> linarith
  refine (C67_estimate_defined hp (double_inverse hsb hsb') (fun a => ?_)).1 key
  have h5 : 0 ≤ 5 * (2 ^ (-53 : ℤ) * N) * g.s := by positivity
  rw [abs_of_nonneg (h5.trans (key a).1)]
  have h6 := mul_le_mul_of_nonneg_right (hN a) hsp.le
  linarith [(key a).2]

/-- C83. The clearance of a location in the world, for grids at any pose: `e'` less `√3 + 3 + N/σ + N²/2³⁷` cell edges, less the error of
the transform. `σ` is 2¹⁸ for fields of `float` and 2⁴⁴ for fields of `double`. -/
theorem C83_clear_ball (hro : StoredAs ro σ) (hg : GeneratedBy ro filled border g) (hP : StoredPose P g.pose δ)
    (hrun : ToGridRuns roundDouble P toGrid) (hs : (2 : ℝ) ^ (-100 : ℤ) ≤ g.s) (hs' : g.s ≤ 2 ^ (100 : ℤ)) (h1 : 1 ≤ N) (hN43 : N ≤ 2 ^ 43)
    (hN : ∀ a, (axisCells g.dims a : ℝ) ≤ N) (hint : DoubleInterpolation interp) {p : Fin 3 → ℝ} {e' : ℝ}
    (he' : flEstimate (roundedQuery roundDouble norm interp) (g.computed (roundDouble (1 / g.s)) toGrid toWorld rotate) (point4 p) = .value e')
    (hX : WithinWorld X g.pose.t p) {o : Fin 3 → ℤ} (ho : CellInGrid (axisCells g.dims) o) (hfo : filled (cellIdx o) = true) {x y : Vec ℝ}
    (hxy : InFrame g.pose.R g.pose.t x y) (hx : InClosedCell g.s o x) :
    e' - (Real.sqrt 3 + 3 + N / σ + N ^ 2 / 2 ^ 37) * g.s - (2 ^ (-46 : ℤ) + 12 * δ) * X ≤ dist3 p y := by
  obtain ⟨q, hq⟩ := frame_place (Q := g.pose) (toGrid (point4 p))
  have h := stored_clear_ball (p' := p) hro hg hs hs' h1 hN43 hN hint he' hq ho hxy hx hfo
  have e := C83_location_error hP hg.pose hrun hX hq
  generalize (2 ^ (-46 : ℤ) + 12 * δ) * X = E at *
  linarith

/-- C83. The same margin less `7/2` cell edges for locations not in the outer half of an outer cell. -/
theorem C83_clear_ball_inside (hro : StoredAs ro σ) (hg : GeneratedBy ro filled border g) (hP : StoredPose P g.pose δ)
    (hrun : ToGridRuns roundDouble P toGrid) (hs : (2 : ℝ) ^ (-100 : ℤ) ≤ g.s) (hs' : g.s ≤ 2 ^ (100 : ℤ)) (h1 : 1 ≤ N) (hN43 : N ≤ 2 ^ 43)
    (hN : ∀ a, (axisCells g.dims a : ℝ) ≤ N) (hint : DoubleInterpolation interp) {p : Fin 3 → ℝ} {e' : ℝ}
    (he' : flEstimate (roundedQuery roundDouble norm interp) (g.computed (roundDouble (1 / g.s)) toGrid toWorld rotate) (point4 p) = .value e')
    (hX : WithinWorld X g.pose.t p)
    (hmid : ∀ a, axisCells g.dims a = 1 ∨ (g.s / 2 + 16 * (2 ^ (-53 : ℤ) * N) * g.s + (2 ^ (-47 : ℤ) + 6 * δ) * X ≤ inFrameOf g.pose p a ∧
      inFrameOf g.pose p a ≤ ((axisCells g.dims a : ℝ) - 1 / 2) * g.s - 16 * (2 ^ (-53 : ℤ) * N) * g.s - (2 ^ (-47 : ℤ) + 6 * δ) * X))
    {o : Fin 3 → ℤ} (ho : CellInGrid (axisCells g.dims) o) (hfo : filled (cellIdx o) = true) {x y : Vec ℝ}
    (hxy : InFrame g.pose.R g.pose.t x y) (hx : InClosedCell g.s o x) :
    e' - (Real.sqrt 3 - 1 / 2 + N / σ + N ^ 2 / 2 ^ 37) * g.s - (2 ^ (-46 : ℤ) + 12 * δ) * X ≤ dist3 p y := by
  obtain ⟨q, hq⟩ := frame_place (Q := g.pose) (toGrid (point4 p))
  have h := stored_clear_ball_inside (p' := p) hro hg hs hs' h1 hN43 hN hint he' hq (fun a => (hmid a).imp id fun h =>
    have e := C83_coordinate_error hP hg.pose hrun hX a
    ⟨(margin_kept e).1 h.1, (margin_kept e).2 h.2⟩) ho hxy hx hfo
  have e := C83_location_error hP hg.pose hrun hX hq
  clear hmid
  generalize (2 ^ (-46 : ℤ) + 12 * δ) * X = E at *
  linarith

/-- C83. Projection: the returned location has the requested clearance in the world, less the margins. -/
theorem C83_projection_clear (hro : StoredAs ro σ) (hg : GeneratedBy ro filled border g) (hP : StoredPose P g.pose δ)
    (hrun : ToGridRuns roundDouble P toGrid) (hs : (2 : ℝ) ^ (-100 : ℤ) ≤ g.s) (hs' : g.s ≤ 2 ^ (100 : ℤ)) (h1 : 1 ≤ N) (hN43 : N ≤ 2 ^ 43)
    (hN : ∀ a, (axisCells g.dims a : ℝ) ≤ N) (hint : DoubleInterpolation interp) {fuel : ℕ} {loc ret : Vec4 ℝ} {minDist mult : ℝ}
    (hret : flProject (roundedQuery roundDouble norm interp) (g.computed (roundDouble (1 / g.s)) toGrid toWorld rotate) fuel loc minDist mult =
      some (.value ret))
    (hin : flEstimate (roundedQuery roundDouble norm interp) (g.computed (roundDouble (1 / g.s)) toGrid toWorld rotate) loc ≠ .empty)
    (hX : WithinWorld X g.pose.t ret.v) {o : Fin 3 → ℤ} (ho : CellInGrid (axisCells g.dims) o) (hfo : filled (cellIdx o) = true) {x y : Vec ℝ}
    (hxy : InFrame g.pose.R g.pose.t x y) (hx : InClosedCell g.s o x) :
    minDist - (Real.sqrt 3 + 3 + N / σ + N ^ 2 / 2 ^ 37) * g.s - (2 ^ (-46 : ℤ) + 12 * δ) * X < dist3 ret.v y := by
  obtain ⟨hw, h | ⟨d, hd, hlt⟩⟩ := C65_project _ _ hret
  · exact absurd h.2 hin
  · have hw : ret.w = 1 := of_decide_eq_true hw
    have e : ret = point4 ret.v := by cases ret; simp only [point4] at *; rw [hw]
    rw [e] at hd
    have := C83_clear_ball hro hg hP hrun hs hs' h1 hN43 hN hint hd hX ho hfo hxy hx
    have hlt : minDist < d := by
      have : decide (d ≤ minDist) = false := hlt
      simpa using this
    linarith

/-- C83. The field of free space and named objects: clearance from obstacles and distance from free space, in the world. -/
theorem C83_named_clear {C : Type} {occ : C → Fl} {obj : C → Nat} {m : CellMap C} {gp : GenParams} (hro : StoredAs ro σ)
    (hg : FieldOfFreeAndNamed occ obj ro m gp g) (hP : StoredPose P g.pose δ)
    (hrun : ToGridRuns roundDouble P toGrid) (hs : (2 : ℝ) ^ (-100 : ℤ) ≤ g.s) (hs' : g.s ≤ 2 ^ (100 : ℤ)) (h1 : 1 ≤ N) (hN43 : N ≤ 2 ^ 43)
    (hN : ∀ a, (axisCells g.dims a : ℝ) ≤ N) (hint : DoubleInterpolation interp) {p : Fin 3 → ℝ} {e' : ℝ}
    (he' : flEstimate (roundedQuery roundDouble norm interp) (g.computed (roundDouble (1 / g.s)) toGrid toWorld rotate) (point4 p) = .value e')
    (hX : WithinWorld X g.pose.t p) {o : Fin 3 → ℤ} (ho : CellInGrid (axisCells g.dims) o) {x y : Vec ℝ}
    (hxy : InFrame g.pose.R g.pose.t x y) (hx : InClosedCell g.s o x) :
    (IsObstacle occ m gp (cellIdx o) →
      e' - (Real.sqrt 3 + 3 + N / σ + N ^ 2 / 2 ^ 37) * g.s - (2 ^ (-46 : ℤ) + 12 * δ) * X ≤ dist3 p y) ∧
    (¬ IsObstacle occ m gp (cellIdx o) →
      -e' - (Real.sqrt 3 + 3 + N / σ + N ^ 2 / 2 ^ 37) * g.s - (2 ^ (-46 : ℤ) + 12 * δ) * X ≤ dist3 p y) := by
  obtain ⟨q, hq⟩ := frame_place (Q := g.pose) (toGrid (point4 p))
  have e := C83_location_error hP hg.pose hrun hX hq
  have h : (IsObstacle occ m gp (cellIdx o) → e' - (Real.sqrt 3 + 3 + N / σ + N ^ 2 / 2 ^ 37) * g.s - dist3 q p ≤ dist3 p y) ∧
      (¬ IsObstacle occ m gp (cellIdx o) → -e' - (Real.sqrt 3 + 3 + N / σ + N ^ 2 / 2 ^ 37) * g.s - dist3 q p ≤ dist3 p y) := by
    rcases hro with ⟨rfl, rfl⟩ | ⟨rfl, rfl⟩
    · exact C82_named_float (q' := p) hg hs hs' h1 hN43 hN hint he' hq ho hxy hx
    · exact C82_named_double (q' := p) hg hs hs' h1 hN43 hN hint he' hq ho hxy hx
  generalize (2 ^ (-46 : ℤ) + 12 * δ) * X = E at *
  exact ⟨fun ho => by have := h.1 ho; linarith, fun ho => by have := h.2 ho; linarith⟩

/-- C83. The place that the theorems on fields of meshes (C81) speak of is within `X/2⁴⁶` of the location: such maps are not turned. -/
theorem C83_mesh_place {t x p : Fin 3 → ℝ} (hF : F.pose = ⟨unturned, t⟩) (hrun : ToGridRuns roundDouble F.pose toGrid)
    (hp : ∀ a, p a = toGrid (point4 x) a + t a) (hX : WithinWorld X t x) : dist3 p x ≤ X / 2 ^ 46 := by
  have e := C83_location_error (X := X) (δ := 0) (q := p) (P := F.pose) (g := F)
    ⟨rfl, by simp, by norm_num⟩ (by rw [hF]; exact unturned_orthogonal) hrun (by rw [hF]; exact hX) (by rw [hF]; exact unturned_frame.mpr hp)
  have e46 : (2 ^ (-46 : ℤ) + 12 * (0 : ℝ)) * X = X / 2 ^ 46 := by rw [zpow_neg]; norm_num; ring
  rwa [e46] at e

/-- C83. From a mesh to the clearance of a location in the world: C81 with the transform of the location. -/
theorem C83_mesh_clearance {dims : Dims} {s T D : ℝ} {t : Fin 3 → ℝ} {vertices : List (Fin 3 → ℝ)} {triangles : List (ℤ × ℤ × ℤ)}
    {occ : Idx → Fl} {gp : GenParams} (hs : (2 : ℝ) ^ (-100 : ℤ) ≤ s) (hs' : s ≤ 2 ^ (100 : ℤ)) (h1 : 1 ≤ N) (hN : N ≤ 2 ^ 43)
    (hcells : ∀ a, (axisCells dims a : ℝ) ≤ N) (hT : ∀ a, |t a| ≤ T) (hm : FineMesh N s D t vertices triangles)
    (hmesh : FlMeshRuns (rastOver (roundedArith roundDouble) root3Double) (shiftedMap roundDouble dims s t) true vertices triangles
      (fun _ => .fin 0) false occ) (hro : StoredAs ro σ) (hF : FieldOfMap ro gp dims s t occ F)
    (hrun : ToGridRuns roundDouble F.pose toGrid) (hint : DoubleInterpolation interp) {p : Fin 3 → ℝ} {e' : ℝ}
    (he' : flEstimate (roundedQuery roundDouble norm interp) (F.computed (roundDouble (1 / F.s)) toGrid toWorld rotate) (point4 p) = .value e')
    (hX : WithinWorld X t p) {Y Y' : Fin 3 → ℝ} (hY : OnMesh vertices triangles Y)
    (haway : AwayFromCorners (N * s / 2 ^ 50) (D + (T + 28 * (N * s)) / 2 ^ 51) s t Y) :
    e' - (Real.sqrt 3 + 3 + N / σ + N ^ 2 / 2 ^ 37) * s - X / 2 ^ 46 - N * s / 2 ^ 49 - dist3 Y Y' ≤ dist3 p Y' := by
  have h := C81_clearance (p' := p) (Y' := Y') hs hs' h1 hN hcells hT hm hmesh hro hF
    ⟨hint, he', fun _ => rfl⟩ hY haway
  have e := C83_mesh_place hF.pose hrun (p := fun a => toGrid (point4 p) a + t a) (fun _ => rfl) hX
  linarith

theorem inFrameOf_unique {Q : Pose ℝ} (hQ : Orthogonal Q.R) {x y : Fin 3 → ℝ} (h : InFrame Q.R Q.t y x) (a : Fin 3) : inFrameOf Q x a = y a := by
  have h0 := hQ.1 a 0
  have h1 := hQ.1 a 1
  have h2 := hQ.1 a 2
  have x0 := h 0
  have x1 := h 1
  have x2 := h 2
  unfold inFrameOf
  rw [x0, x1, x2]
  fin_cases a <;> simp at h0 h1 h2 ⊢ <;>
  linear_combination (y 0) * h0 + (y 1) * h1 + (y 2) * h2

/-- C83. What the theorems on fine gradients (C79) assume of the transform. -/
theorem C83_located (hP : StoredPose P g.pose δ) (hg : Orthogonal g.pose.R) (hrun : ToGridRuns roundDouble P toGrid)
    {p : Fin 3 → ℝ} {w : ℝ} (hX : (2 : ℝ) ^ (-1022 : ℤ) ≤ X) (ht : ∀ a, |g.pose.t a| ≤ X) (hp : ∀ a, |p a| + 2 * w ≤ X) :
    LocatedWithin ((2 ^ (-47 : ℤ) + 6 * δ) * X) w g toGrid p := by
  intro x y hxy hw a
  have := C83_coordinate_error (X := X) hP hg hrun (x := x) ⟨ht, fun a => ?_, hX⟩ a
  · rw [inFrameOf_unique hg hxy] at this
    exact this
  · have e : x a = (x a - p a) + p a := by ring
    rw [e]
    have := hw a
    have := hp a
    exact (abs_add_le _ _).trans (by linarith)

end

/-! ### Examples -/

/-- Products and sums one after the other, each rounded. -/
def seqDot {K : Type} [Field K] (r : K → K) : List (K × K) → K → K
  | [], v => v
  | p :: l, v => seqDot r l (r (v + r (p.1 * p.2)))

theorem seqDot_runs {K : Type} [Field K] (r : K → K) : ∀ (l l' : List (K × K)) (v : K), DotRuns r l' v → DotRuns r (l' ++ l) (seqDot r l v)
  | [], l', v, h => by rw [List.append_nil]; exact h
  | p :: l, l', v, h => by
    have := seqDot_runs r l (l' ++ [p]) _ (.add h (.one p.1 p.2))
    rw [List.append_assoc] at this
    exact this

theorem dotRuns_exists {K : Type} [Field K] (r : K → K) (p : K × K) (l : List (K × K)) : ∃ v, DotRuns r (p :: l) v :=
  ⟨_, seqDot_runs r l [p] _ (.one p.1 p.2)⟩

theorem toGridRuns_exists {K : Type} [Field K] (r : K → K) (P : Pose K) : ∃ toGrid, ToGridRuns r P toGrid := by
  choose t ht using fun a : Fin 3 => dotRuns_exists r (-P.R 0 a, P.t 0) [(-P.R 1 a, P.t 1), (-P.R 2 a, P.t 2)]
  choose f hf using fun (v : Vec4 K) (a : Fin 3) => dotRuns_exists r (P.R 0 a, v.v 0) [(P.R 1 a, v.v 1), (P.R 2 a, v.v 2), (t a, v.w)]
  exact ⟨f, ⟨fun a b => P.R b a, t⟩, ⟨fun _ _ => rfl, ht⟩, hf⟩

/-- A grid turned by the angle with cosine 3/5 and moved by 1000 and 2000. -/
noncomputable def slantPose : Pose ℝ := ⟨![![3 / 5, -4 / 5, 0], ![4 / 5, 3 / 5, 0], ![0, 0, 1]], ![1000, 2000, 0]⟩

theorem slantPose_orthogonal : Orthogonal slantPose.R := by
  constructor <;> intro a b <;> fin_cases a <;> fin_cases b <;> simp [slantPose] <;> norm_num

/-- The rotation as it is stored, each entry rounded. -/
noncomputable def slantStored : Pose ℝ := ⟨fun a b => roundDouble (slantPose.R a b), slantPose.t⟩

theorem slantStored_near : StoredPose slantStored slantPose (2 ^ (-52 : ℤ)) where
  trans := rfl
  near a b := by
    have h := double_err.1 (slantPose.R a b)
    have h1 := mul_le_mul_of_nonneg_left (orthogonal_entry slantPose_orthogonal a b) (by positivity : (0 : ℝ) ≤ 2 ^ (-53 : ℤ))
    have z : (2 : ℝ) ^ (-1075 : ℤ) ≤ 2 ^ (-53 : ℤ) := zpow_le_zpow_right₀ (by norm_num) (by norm_num)
    have e : (2 : ℝ) ^ (-52 : ℤ) = 2 * 2 ^ (-53 : ℤ) := by rw [← zpow_one_add₀ (by norm_num)]; norm_num
    change |roundDouble (slantPose.R a b) - _| ≤ _
    rw [e]
    linarith
  small := by norm_num

/-- The place of `(81/2, 1/2, 1/2)` of the turned grid in the world. -/
noncomputable def slantPlace : Fin 3 → ℝ := ![10239 / 10, 20327 / 10, 1 / 2]

theorem slantPlace_frame : InFrame slantPose.R slantPose.t ![81 / 2, 1 / 2, 1 / 2] slantPlace := by
  intro a; fin_cases a <;> simp [slantPose, slantPlace] <;> norm_num

theorem slantPlace_world : WithinWorld 2048 slantPose.t slantPlace where
  origin a := by fin_cases a <;> simp [slantPose] <;> norm_num [abs_le]
  place a := by fin_cases a <;> simp [slantPlace] <;> norm_num [abs_le]
  normal := le_trans (zpow_le_zpow_right₀ (by norm_num) (by norm_num : (-1022 : ℤ) ≤ 0)) (by norm_num)

/-- A row of 64 cells of edge 1 in a turned and moved grid whose rotation is stored with rounding: the location has an answer,
and the first cell is at least the answer less 5 away. -/
example : ∃ (g : SDFGrid ℝ) (toGrid : Vec4 ℝ → Fin 3 → ℝ), GeneratedBy floatSDF (fun i => decide (i.1 = 0)) false g ∧
    StoredPose slantStored g.pose (2 ^ (-52 : ℤ)) ∧ ToGridRuns roundDouble slantStored toGrid ∧ WithinWorld 2048 g.pose.t slantPlace ∧
    dist3 (fun a => g.pose.R a 0 * toGrid (point4 slantPlace) 0 + g.pose.R a 1 * toGrid (point4 slantPlace) 1 +
      g.pose.R a 2 * toGrid (point4 slantPlace) 2 + g.pose.t a) slantPlace ≤ 1 / 2 ^ 34 ∧
    LocatedWithin (1 / 2 ^ 35) 1 g toGrid slantPlace ∧
    ∃ e', flEstimate (roundedQuery roundDouble (fun _ => 0) (flTrilinear (roundedArith roundDouble)))
      (g.computed (roundDouble (1 / g.s)) toGrid id id) (point4 slantPlace) = .value e' ∧
      ∀ x y, InFrame g.pose.R g.pose.t x y → InClosedCell 1 ![0, 0, 0] x → e' - 5 ≤ dist3 slantPlace y := by
  obtain ⟨g, hg, hd, hs, hP⟩ := C68_generated_exists exRow_ok slantPose_orthogonal (filled := fun i => decide (i.1 = 0)) false
    (i := (1, 0, 0)) (by decide) (by decide) (j := (0, 0, 0)) (by decide) (by decide)
  obtain ⟨toGrid, hrun⟩ := toGridRuns_exists roundDouble slantStored
  dsimp only at hd hs
  have hst : StoredPose slantStored g.pose (2 ^ (-52 : ℤ)) := by rw [hP]; exact slantStored_near
  have hX : WithinWorld 2048 g.pose.t slantPlace := by rw [hP]; exact slantPlace_world
  have hN : ∀ a, (axisCells g.dims a : ℝ) ≤ 64 := by
    rw [hd]; intro a; fin_cases a <;> simp [axisCells]
  have s1 : (2 : ℝ) ^ (-100 : ℤ) ≤ g.s := by rw [hs]; norm_num
  have s2 : g.s ≤ (2 : ℝ) ^ (100 : ℤ) := by rw [hs]; norm_num
  obtain ⟨e', he'⟩ := C83_answer_exists (norm := fun _ => 0) (interp := flTrilinear (roundedArith roundDouble)) (toWorld := id) (rotate := id)
    hst hg.pose hrun s1 s2 (N := 64) (by norm_num) (by norm_num) hN hX (by
      intro a
      rw [hP, inFrameOf_unique slantPose_orthogonal slantPlace_frame, hd, hs]
      fin_cases a <;> simp [axisCells] <;> norm_num)
  have loc := C83_location_error hst hg.pose hrun hX (fun a => rfl)
  refine ⟨g, toGrid, hg, hst, hrun, hX, loc.trans (by norm_num), ?_, e', he', fun x y hxy hx => ?_⟩
  · have := C83_located (X := 2048) (w := 1) (p := slantPlace) hst hg.pose hrun hX.normal hX.origin (by
      intro a; fin_cases a <;> simp [slantPlace] <;> norm_num [abs_of_pos])
    exact fun x y hxy hw a => (this x y hxy hw a).trans (by norm_num)
  · have := C83_clear_ball (.inl ⟨rfl, rfl⟩) hg hst hrun s1 s2 (N := 64) (by norm_num) (by norm_num) hN (.inl rfl) he' hX (o := ![0, 0, 0])
      (by rw [hd]; intro a; fin_cases a <;> simp [axisCells]) (by decide) hxy (by rw [hs]; exact hx)
    have h3 : Real.sqrt 3 ≤ 19 / 10 := by rw [Real.sqrt_le_left (by norm_num)]; norm_num
    rw [hs] at this
    norm_num at this
    linarith

theorem project_far {F : Type} (A : QueryArith F) (g : FlSDF F) {loc : Vec4 F} {minDist mult d : F} (h : flEstimate A g loc = .value d)
    (hd : A.le d minDist = false) (hw : A.isOne loc.w = true) (fuel : ℕ) : flProject A g fuel loc minDist mult = some (.value loc) := by
  unfold flProject
  rw [h]
  unfold flEstimate at h
  rcases hi : flIndexOf A g loc with _ | i
  · rw [hi] at h
    cases h
  · rw [hi] at h
    dsimp only at h ⊢
    by_cases hg : inGrid g.dims i = true
    · rw [if_pos hg]
      unfold flProjectLoop
      rw [if_neg (by rw [hd]; exact Bool.false_ne_true)]
      unfold flProjected
      rw [if_pos hw]
    · rw [if_neg hg] at h
      cases h

/-- Projection in the slanted grid from a place already clear: `C83_projection_clear` applies. -/
example : ∃ (g : SDFGrid ℝ) (toGrid : Vec4 ℝ → Fin 3 → ℝ) (minDist : ℝ), GeneratedBy doubleSDF (fun i => decide (i.1 = 0)) false g ∧
    StoredPose slantStored g.pose (2 ^ (-52 : ℤ)) ∧ ToGridRuns roundDouble slantStored toGrid ∧
    flProject (roundedQuery roundDouble (fun _ => 0) (flTrilinear (roundedArith roundDouble)))
      (g.computed (roundDouble (1 / g.s)) toGrid id id) 5 (point4 slantPlace) minDist 1 = some (.value (point4 slantPlace)) ∧
    ∀ x y, InFrame g.pose.R g.pose.t x y → InClosedCell 1 ![0, 0, 0] x → minDist - 5 < dist3 slantPlace y := by
  obtain ⟨g, hg, hd, hs, hP⟩ := C68_generated_exists exRow_ok_double slantPose_orthogonal (filled := fun i => decide (i.1 = 0)) false
    (i := (1, 0, 0)) (by decide) (by decide) (j := (0, 0, 0)) (by decide) (by decide)
  obtain ⟨toGrid, hrun⟩ := toGridRuns_exists roundDouble slantStored
  dsimp only at hd hs
  have hst : StoredPose slantStored g.pose (2 ^ (-52 : ℤ)) := by rw [hP]; exact slantStored_near
  have hX : WithinWorld 2048 g.pose.t slantPlace := by rw [hP]; exact slantPlace_world
  have hN : ∀ a, (axisCells g.dims a : ℝ) ≤ 64 := by
    rw [hd]; intro a; fin_cases a <;> simp [axisCells]
  have s1 : (2 : ℝ) ^ (-100 : ℤ) ≤ g.s := by rw [hs]; norm_num
  have s2 : g.s ≤ (2 : ℝ) ^ (100 : ℤ) := by rw [hs]; norm_num
  obtain ⟨e', he'⟩ := C83_answer_exists (norm := fun _ => 0) (interp := flTrilinear (roundedArith roundDouble)) (toWorld := id) (rotate := id)
    hst hg.pose hrun s1 s2 (N := 64) (by norm_num) (by norm_num) hN hX (by
      intro a
      rw [hP, inFrameOf_unique slantPose_orthogonal slantPlace_frame, hd, hs]
      fin_cases a <;> simp [axisCells] <;> norm_num)
  have hret := project_far _ _ (minDist := e' - 1) (mult := 1) he' (decide_eq_false (by linarith)) (decide_eq_true rfl) 5
  refine ⟨g, toGrid, e' - 1, hg, hst, hrun, hret, fun x y hxy hx => ?_⟩
  have := C83_projection_clear (.inr ⟨rfl, rfl⟩) hg hst hrun s1 s2 (N := 64) (by norm_num) (by norm_num) hN (.inl rfl) hret
    (by rw [he']; intro h; cases h) hX (o := ![0, 0, 0])
    (by rw [hd]; intro a; fin_cases a <;> simp [axisCells]) (by decide) hxy (by rw [hs]; exact hx)
  have h3 : Real.sqrt 3 ≤ 19 / 10 := by rw [Real.sqrt_le_left (by norm_num)]; norm_num
  rw [hs] at this
  norm_num at this
  exact lt_of_le_of_lt (by linarith) this

/-- The mesh of C81: a transform computed from the pose of its field, the answer at a location, and its clearance. -/
example : ∃ (F : SDFGrid ℝ) (t : Fin 3 → ℝ) (toGrid : Vec4 ℝ → Fin 3 → ℝ) (e' : ℝ), F.pose = ⟨unturned, t⟩ ∧ ToGridRuns roundDouble F.pose toGrid ∧
    WithinWorld 32 t (fun _ => 30) ∧ flEstimate (roundedQuery roundDouble (fun _ => 0) (flTrilinear (roundedArith roundDouble)))
      (F.computed (roundDouble (1 / F.s)) toGrid id id) (point4 fun _ => 30) = .value e' ∧
    e' - (Real.sqrt 3 - 1 / 2 + 21 / 2 ^ 18 + 21 ^ 2 / 2 ^ 37) * 8 - 21 * 8 / 2 ^ 49 - 32 / 2 ^ 46 ≤ dist3 (fun _ => 30) ![60, 60, 60] := by
  obtain ⟨F, t, hF, -, ht, h⟩ := exampleMesh_answers
  obtain ⟨toGrid, hrun⟩ := toGridRuns_exists roundDouble F.pose
  have hX : WithinWorld 32 t (fun _ => 30) := ⟨fun a => by
    have := abs_le.1 (ht a)
    rw [abs_le]
    constructor <;> linarith [this.1, this.2], fun a => by rw [abs_of_pos] <;> norm_num,
    le_trans (zpow_le_zpow_right₀ (by norm_num) (by norm_num : (-1022 : ℤ) ≤ 0)) (by norm_num)⟩
  have hfr : ∀ a, inFrameOf F.pose (fun _ => 30) a = 30 - t a := fun a =>
    inFrameOf_unique (by rw [hF]; exact unturned_orthogonal) (y := fun a => 30 - t a)
      (by rw [hF]; exact unturned_frame.mpr fun a => by ring) a
  obtain ⟨e', hA, h1, -⟩ := h toGrid fun a => by
    have := C83_coordinate_error (X := 32) (δ := 0) (P := F.pose) (g := F) ⟨rfl, by simp, by norm_num⟩
      (by rw [hF]; exact unturned_orthogonal) hrun (x := fun _ => 30) (by rw [hF]; exact hX) a
    rw [hfr] at this
    exact this.trans (by norm_num)
  refine ⟨F, t, toGrid, e', hF, hrun, hX, hA.answer, ?_⟩
  have := C83_mesh_place hF hrun hA.place hX
  linarith

/-- A map with a named and an unnamed obstacle in the slanted grid: `C83_named_clear` applies. -/
example : ∃ (g : SDFGrid ℝ) (toGrid : Vec4 ℝ → Fin 3 → ℝ), FieldOfFreeAndNamed Prod.fst Prod.snd floatSDF exUnnamed ⟨.fin 0, false, false⟩ g ∧
    StoredPose slantStored g.pose (2 ^ (-52 : ℤ)) ∧ ToGridRuns roundDouble slantStored toGrid ∧
    ∃ e', flEstimate (roundedQuery roundDouble (fun _ => 0) (flTrilinear (roundedArith roundDouble)))
      (g.computed (roundDouble (1 / g.s)) toGrid id id) (point4 slantPlace) = .value e' ∧
      ∀ x y, InFrame g.pose.R g.pose.t x y → InClosedCell 1 ![63, 0, 0] x → e' - 5 ≤ dist3 slantPlace y := by
  obtain ⟨g, hg, hd, hs, hP⟩ := fieldOfFreeAndNamed_exists (m := exUnnamed) (obj := Prod.snd) (ro := floatSDF) exRow_ok slantPose_orthogonal
    (occ := Prod.fst) (p := ⟨.fin 0, false, false⟩)
    (i := (1, 0, 0)) (by decide) (fun h => absurd ((exUnnamed_obstacle _).1 h) (by decide)) (j := (0, 0, 0)) (by decide)
    ((exUnnamed_obstacle _).2 (.inl rfl))
  obtain ⟨toGrid, hrun⟩ := toGridRuns_exists roundDouble slantStored
  change g.dims = ⟨64, 1, 1⟩ at hd
  change g.s = 1 at hs
  have hst : StoredPose slantStored g.pose (2 ^ (-52 : ℤ)) := by rw [hP]; exact slantStored_near
  have hX : WithinWorld 2048 g.pose.t slantPlace := by rw [hP]; exact slantPlace_world
  have hN : ∀ a, (axisCells g.dims a : ℝ) ≤ 64 := by
    rw [hd]; intro a; fin_cases a <;> simp [axisCells]
  have s1 : (2 : ℝ) ^ (-100 : ℤ) ≤ g.s := by rw [hs]; norm_num
  have s2 : g.s ≤ (2 : ℝ) ^ (100 : ℤ) := by rw [hs]; norm_num
  obtain ⟨e', he'⟩ := C83_answer_exists (norm := fun _ => 0) (interp := flTrilinear (roundedArith roundDouble)) (toWorld := id) (rotate := id)
    hst hg.pose hrun s1 s2 (N := 64) (by norm_num) (by norm_num) hN hX (by
      intro a
      rw [hP, inFrameOf_unique slantPose_orthogonal slantPlace_frame, hd, hs]
      fin_cases a <;> simp [axisCells] <;> norm_num)
  refine ⟨g, toGrid, hg, hst, hrun, e', he', fun x y hxy hx => ?_⟩
  have := (C83_named_clear (.inl ⟨rfl, rfl⟩) hg hst hrun s1 s2 (N := 64) (by norm_num) (by norm_num) hN (.inl rfl) he' hX (o := ![63, 0, 0])
    (by rw [hd]; intro a; fin_cases a <;> simp [axisCells]) hxy (by rw [hs]; exact hx)).1 ((exUnnamed_obstacle _).2 (.inr rfl))
  have h3 : Real.sqrt 3 ≤ 19 / 10 := by rw [Real.sqrt_le_left (by norm_num)]; norm_num
  rw [hs] at this
  norm_num at this
  linarith

end VGT
