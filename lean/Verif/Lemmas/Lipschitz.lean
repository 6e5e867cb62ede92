import Verif.Lemmas.Generated

/-!
How fast interpolated values change.
-/
set_option autoImplicit false

namespace VGT
open VGT.EDT VGT.Spec

/-- Values that change by at most `L` between neighbours. -/
theorem steps_le {n : ℕ} {L : ℝ} {f : ℤ → ℝ} (hL : ∀ k : ℤ, 0 ≤ k → k + 1 < n → |f (k + 1) - f k| ≤ L) {b : ℤ} (hb : 0 ≤ b)
    (m : ℕ) (hm : b + m < n) : |f (b + m) - f b| ≤ m * L := by
  induction m with
  | zero => simp
  | succ m ih =>
    have h1 := ih (by push_cast at hm; omega)
    have h2 := hL (b + m) (by omega) (by push_cast at hm; omega)
    rw [show b + ((m + 1 : ℕ) : ℤ) = b + m + 1 by push_cast; ring]
    rw [show f (b + m + 1) - f b = (f (b + m + 1) - f (b + m)) + (f (b + m) - f b) by ring]
    refine (abs_add_le _ _).trans ?_
    push_cast
    linarith

/-- One axis: interpolation changes no faster than the values, also where it extrapolates. -/
theorem interp1_lipschitz {s M x y : ℝ} (hs : 0 < s) {n : ℕ} (hx0 : 0 ≤ ⌊x / s⌋) (hxn : ⌊x / s⌋ < n) (hy0 : 0 ≤ ⌊y / s⌋)
    (hyn : ⌊y / s⌋ < n) {f : ℤ → ℝ} (hf : ∀ k : ℤ, 0 ≤ k → k + 1 < n → |f (k + 1) - f k| ≤ M * s) (hM : 0 ≤ M) :
    |interp1 s x n f - interp1 s y n f| ≤ M * |x - y| := by
  obtain ⟨b, c, ex, hb, hc, hx⟩ := axisIndices_spec s x hs n hx0 hxn
  obtain ⟨b', c', ey, hb', hc', hy⟩ := axisIndices_spec s y hs n hy0 hyn
  unfold interp1
  simp only [ex, ey]
  have slope : ∀ k : ℤ, 0 ≤ k → k + 1 < n → |(f (k + 1) - f k) / s| ≤ M := by
    intro k h0 h1
    rw [abs_div, abs_of_pos hs, div_le_iff₀ hs]
    exact hf k h0 h1
  have lin : ∀ k : ℤ, 0 ≤ k → k + 1 < n → ∀ t : ℝ, |t * ((f (k + 1) - f k) / s)| ≤ M * |t| := by
    intro k h0 h1 t
    rw [abs_mul, mul_comm]
    exact mul_le_mul_of_nonneg_right (slope k h0 h1) (abs_nonneg _)
  rcases hx with ⟨n1, e2, e3⟩ | ⟨e1, e2, e3⟩
  · rcases hy with ⟨_, e2', e3'⟩ | ⟨e1', _, _⟩
    · subst e2 e3 e2' e3'
      simp only [sub_self, zero_div, mul_zero, abs_zero]
      positivity
    · omega
  · rcases hy with ⟨n1', _, _⟩ | ⟨e1', e2', e3'⟩
    · omega
    · subst e1 e1'
      -- the two segments, first one to the left
      have key : ∀ {x y : ℝ} {b b' : ℤ}, 0 ≤ b → b' + 1 < n → b < b' → (b + 2 < n → x ≤ ((b : ℝ) + 1 + 1 / 2) * s) →
          (1 ≤ b' → ((b' : ℝ) + 1 / 2) * s ≤ y) →
          |f b + (x - ((b : ℝ) + 1 / 2) * s) * ((f (b + 1) - f b) / s) -
            (f b' + (y - ((b' : ℝ) + 1 / 2) * s) * ((f (b' + 1) - f b') / s))| ≤ M * |x - y| := by
        intro x y b b' hb hc' hlt hxu hyl
        have hxu := hxu (by omega)
        have hyl := hyl (by omega)
        obtain ⟨m, hm⟩ : ∃ m : ℕ, b' = b + 1 + m := ⟨(b' - b - 1).toNat, by omega⟩
        have h1 : |(x - ((b : ℝ) + 1 + 1 / 2) * s) * ((f (b + 1) - f b) / s)| ≤ M * (((b : ℝ) + 1 + 1 / 2) * s - x) := by
          have := lin b hb (by omega) (x - ((b : ℝ) + 1 + 1 / 2) * s)
          rwa [abs_of_nonpos (by linarith : x - ((b : ℝ) + 1 + 1 / 2) * s ≤ 0), neg_sub] at this
        have h2 := steps_le hf (b := b + 1) (by omega) m (by omega)
        have h3 : |(y - ((b' : ℝ) + 1 / 2) * s) * ((f (b' + 1) - f b') / s)| ≤ M * (y - ((b' : ℝ) + 1 / 2) * s) := by
          have := lin b' (by omega) hc' (y - ((b' : ℝ) + 1 / 2) * s)
          rwa [abs_of_nonneg (by linarith : 0 ≤ y - ((b' : ℝ) + 1 / 2) * s)] at this
        have hb'r : (b' : ℝ) = (b : ℝ) + 1 + m := by rw [hm]; push_cast; ring
        have hxy : x ≤ y := by
          have : (0 : ℝ) ≤ m := Nat.cast_nonneg m
          rw [hb'r] at hyl
          nlinarith
        rw [← hm] at h2
        have hsplit : f b + (x - ((b : ℝ) + 1 / 2) * s) * ((f (b + 1) - f b) / s) -
            (f b' + (y - ((b' : ℝ) + 1 / 2) * s) * ((f (b' + 1) - f b') / s)) =
            (x - ((b : ℝ) + 1 + 1 / 2) * s) * ((f (b + 1) - f b) / s) + -(f b' - f (b + 1)) +
              -((y - ((b' : ℝ) + 1 / 2) * s) * ((f (b' + 1) - f b') / s)) := by
          field_simp
          ring
        rw [hsplit, abs_of_nonpos (by linarith : x - y ≤ 0)]
        refine (abs_add_le _ _).trans ((add_le_add_left (abs_add_le _ _) _).trans ?_)
        rw [abs_neg, abs_neg]
        refine (add_le_add (add_le_add h1 h2) h3).trans (le_of_eq ?_)
        rw [hb'r]
        ring
      rcases lt_trichotomy b b' with hlt | heq | hlt
      · exact key hb hc' hlt e3 e2'
      · subst heq
        have := lin b hb hc (x - y)
        rw [show f b + (x - ((b : ℝ) + 1 / 2) * s) * ((f (b + 1) - f b) / s) -
          (f b + (y - ((b : ℝ) + 1 / 2) * s) * ((f (b + 1) - f b) / s)) = (x - y) * ((f (b + 1) - f b) / s) by ring]
        exact this
      · rw [abs_sub_comm, abs_sub_comm x]
        exact key hb' hc hlt e3' e2

/-- Interpolation along each axis enlarges absolute values by at most `κ`. -/
def Enlarges (s : ℝ) (d : Dims) (q : Fin 3 → ℝ) (κ : ℝ) : Prop :=
  ∀ (a : Fin 3) (f : ℤ → ℝ) (M : ℝ), (∀ k : ℤ, 0 ≤ k → k < axisCells d a → |f k| ≤ M) →
    |interp1 s (q a) (axisCells d a) f| ≤ κ * M

theorem enlarges_inner {s : ℝ} (hs : 0 < s) {d : Dims} {q : Fin 3 → ℝ}
    (hfl : ∀ a, 0 ≤ ⌊q a / s⌋ ∧ ⌊q a / s⌋ < axisCells d a) (hin : BetweenCentres (axisCells d) s q) : Enlarges s d q 1 := by
  intro a f M hf
  rw [one_mul, abs_le]
  exact interp1_between s (q a) hs _ (hfl a).1 (hfl a).2 f (-M) M (hin a) fun k h0 hn _ => abs_le.1 (hf k h0 hn)

theorem enlarges_any {s : ℝ} (hs : 0 < s) {d : Dims} {q : Fin 3 → ℝ}
    (hfl : ∀ a, 0 ≤ ⌊q a / s⌋ ∧ ⌊q a / s⌋ < axisCells d a) : Enlarges s d q 2 :=
  fun a _ _ hf => interp1_abs_le hs (hfl a).1 (hfl a).2 hf

/-- Three axes. -/
theorem interp3_lipschitz {s κ : ℝ} (hs : 0 < s) {d : Dims} {q q' : Fin 3 → ℝ} {v : ℤ → ℤ → ℤ → ℝ}
    (hfl : ∀ a, 0 ≤ ⌊q a / s⌋ ∧ ⌊q a / s⌋ < axisCells d a) (hfl' : ∀ a, 0 ≤ ⌊q' a / s⌋ ∧ ⌊q' a / s⌋ < axisCells d a)
    (hκ : 0 ≤ κ) (hq : Enlarges s d q κ) (hq' : Enlarges s d q' κ)
    (hx : ∀ x y z : ℤ, CellInGrid (axisCells d) ![x, y, z] → CellInGrid (axisCells d) ![x + 1, y, z] →
      |v (x + 1) y z - v x y z| ≤ s)
    (hy : ∀ x y z : ℤ, CellInGrid (axisCells d) ![x, y, z] → CellInGrid (axisCells d) ![x, y + 1, z] →
      |v x (y + 1) z - v x y z| ≤ s)
    (hz : ∀ x y z : ℤ, CellInGrid (axisCells d) ![x, y, z] → CellInGrid (axisCells d) ![x, y, z + 1] →
      |v x y (z + 1) - v x y z| ≤ s) :
    |interp3 s q d v - interp3 s q' d v| ≤ κ ^ 2 * (|q 0 - q' 0| + |q 1 - q' 1| + |q 2 - q' 2|) := by
  have ing : ∀ {x y z : ℤ}, (0 ≤ x ∧ x < d.nx) → (0 ≤ y ∧ y < d.ny) → (0 ≤ z ∧ z < d.nz) →
      CellInGrid (axisCells d) ![x, y, z] := by
    intro x y z h0 h1 h2 a
    fin_cases a
    · exact h0
    · exact h1
    · exact h2
  -- along z
  have dz : |(interp1 s (q 2) d.nz fun z => interp1 s (q 1) d.ny fun y => interp1 s (q 0) d.nx fun x => v x y z) -
      interp1 s (q' 2) d.nz fun z => interp1 s (q 1) d.ny fun y => interp1 s (q 0) d.nx fun x => v x y z| ≤
      κ ^ 2 * |q 2 - q' 2| := by
    refine interp1_lipschitz (M := κ ^ 2) hs (hfl 2).1 (hfl 2).2 (hfl' 2).1 (hfl' 2).2 ?_ (by positivity)
    intro z z0 z1
    rw [interp1_sub, show κ ^ 2 * s = κ * (κ * s) by ring]
    refine hq 1 _ _ fun y y0 y1 => ?_
    rw [interp1_sub]
    exact hq 0 _ _ fun x x0 x1 => hz x y z (ing ⟨x0, x1⟩ ⟨y0, y1⟩ ⟨z0, (lt_add_one _).trans z1⟩) (ing ⟨x0, x1⟩ ⟨y0, y1⟩ ⟨by omega, z1⟩)
  -- along y
  have dy : |(interp1 s (q' 2) d.nz fun z => interp1 s (q 1) d.ny fun y => interp1 s (q 0) d.nx fun x => v x y z) -
      interp1 s (q' 2) d.nz fun z => interp1 s (q' 1) d.ny fun y => interp1 s (q 0) d.nx fun x => v x y z| ≤
      κ ^ 2 * |q 1 - q' 1| := by
    rw [interp1_sub, show κ ^ 2 * |q 1 - q' 1| = κ * (κ * |q 1 - q' 1|) by ring]
    refine hq' 2 _ _ fun z z0 z1 => ?_
    refine interp1_lipschitz hs (hfl 1).1 (hfl 1).2 (hfl' 1).1 (hfl' 1).2 ?_ hκ
    intro y y0 y1
    rw [interp1_sub]
    exact hq 0 _ _ fun x x0 x1 => hy x y z (ing ⟨x0, x1⟩ ⟨y0, (lt_add_one _).trans y1⟩ ⟨z0, z1⟩) (ing ⟨x0, x1⟩ ⟨by omega, y1⟩ ⟨z0, z1⟩)
  -- along x
  have dx : |(interp1 s (q' 2) d.nz fun z => interp1 s (q' 1) d.ny fun y => interp1 s (q 0) d.nx fun x => v x y z) -
      interp1 s (q' 2) d.nz fun z => interp1 s (q' 1) d.ny fun y => interp1 s (q' 0) d.nx fun x => v x y z| ≤
      κ ^ 2 * |q 0 - q' 0| := by
    rw [interp1_sub, show κ ^ 2 * |q 0 - q' 0| = κ * (κ * |q 0 - q' 0|) by ring]
    refine hq' 2 _ _ fun z z0 z1 => ?_
    rw [interp1_sub]
    refine hq' 1 _ _ fun y y0 y1 => ?_
    have := interp1_lipschitz (M := 1) (f := fun x => v x y z) hs (hfl 0).1 (hfl 0).2 (hfl' 0).1 (hfl' 0).2 (by
      intro x x0 x1
      rw [one_mul]
      exact hx x y z (ing ⟨x0, (lt_add_one _).trans x1⟩ ⟨y0, y1⟩ ⟨z0, z1⟩) (ing ⟨by omega, x1⟩ ⟨y0, y1⟩ ⟨z0, z1⟩)) zero_le_one
    rwa [one_mul] at this
  unfold interp3
  refine (abs_sub_le _ _ _).trans ((add_le_add dz ((abs_sub_le _ _ _).trans (add_le_add dy dx))).trans (le_of_eq ?_))
  ring

theorem sum_abs_le (x y : Fin 3 → ℝ) : |x 0 - y 0| + |x 1 - y 1| + |x 2 - y 2| ≤ Real.sqrt 3 * dist3 x y := by
  unfold dist3
  rw [← Real.sqrt_mul (by norm_num)]
  apply Real.le_sqrt_of_sq_le
  have h0 := sq_abs (x 0 - y 0)
  have h1 := sq_abs (x 1 - y 1)
  have h2 := sq_abs (x 2 - y 2)
  nlinarith [sq_nonneg (|x 0 - y 0| - |x 1 - y 1|), sq_nonneg (|x 0 - y 0| - |x 2 - y 2|),
    sq_nonneg (|x 1 - y 1| - |x 2 - y 2|)]

end VGT
