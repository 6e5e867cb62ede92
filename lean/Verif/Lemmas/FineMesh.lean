import Verif.Lemmas.RasterRound
import Verif.Spec.FineMesh

/-!
Small triangles: which cells the rasterizer visits and fills, in rounded arithmetic.
-/
set_option autoImplicit false

namespace VGT
open VGT.EDT VGT.Spec

/-! ### Small triangles -/

theorem dist3_convex {v1 v2 v3 p c : Fin 3 → ℝ} {D : ℝ} (h : OnTriangle v1 v2 v3 p) (h1 : dist3 v1 c ≤ D) (h2 : dist3 v2 c ≤ D)
    (h3 : dist3 v3 c ≤ D) : dist3 p c ≤ D := by
  obtain ⟨x, y, z, hx, hy, hz, hs, hp⟩ := h
  have D0 : 0 ≤ D := (dist3_nonneg _ _).trans h1
  have e : ∀ a, p a - c a = (v1 a - c a) * x + (v2 a - c a) * y + (v3 a - c a) * z := by
    intro a
    rw [hp a]
    linear_combination c a * hs
  have t1 := dist3_triangle (fun a => p a - c a) (fun a => (v2 a - c a) * y + (v3 a - c a) * z) (fun _ => 0)
  have t2 := dist3_triangle (fun a => (v2 a - c a) * y + (v3 a - c a) * z) (fun a => (v3 a - c a) * z) (fun _ => 0)
  have s1 : dist3 (fun a => p a - c a) (fun a => (v2 a - c a) * y + (v3 a - c a) * z) = dist3 v1 c * x := by
    have := len3_scale (fun a => v1 a - c a) x
    rw [abs_of_nonneg hx] at this
    rw [dist3_eq_len3 v1 c, ← this, dist3_eq_len3]
    congr 1
    funext a
    linarith [e a]
  have s2 : dist3 (fun a => (v2 a - c a) * y + (v3 a - c a) * z) (fun a => (v3 a - c a) * z) = dist3 v2 c * y := by
    have := len3_scale (fun a => v2 a - c a) y
    rw [abs_of_nonneg hy] at this
    rw [dist3_eq_len3 v2 c, ← this, dist3_eq_len3]
    congr 1
    funext a
    ring
  have s3 : dist3 (fun a => (v3 a - c a) * z) (fun _ => 0) = dist3 v3 c * z := by
    have := len3_scale (fun a => v3 a - c a) z
    rw [abs_of_nonneg hz] at this
    rw [dist3_eq_len3 v3 c, ← this, len3_eq_dist3]
  have s0 : dist3 (fun a => p a - c a) (fun _ => 0) = dist3 p c := by
    rw [← len3_eq_dist3]; rfl
  rw [s0, s1] at t1
  rw [s2, s3] at t2
  have k1 := mul_le_mul_of_nonneg_right h1 hx
  have k2 := mul_le_mul_of_nonneg_right h2 hy
  have k3 := mul_le_mul_of_nonneg_right h3 hz
  have k4 : D * x + D * y + D * z = D := by linear_combination D * hs
  linarith

theorem dist3_same (p : Fin 3 → ℝ) : dist3 p p = 0 := by simp [dist3]

/-- Two points of a triangle are not farther apart than its longest side. -/
theorem dist3_on_triangle {v1 v2 v3 p x : Fin 3 → ℝ} {D : ℝ} (hD : SidesAtMost D v1 v2 v3) (hp : OnTriangle v1 v2 v3 p)
    (hx : OnTriangle v1 v2 v3 x) : dist3 x p ≤ D := by
  obtain ⟨h12, h23, h31⟩ := hD
  have D0 : 0 ≤ D := (dist3_nonneg _ _).trans h12
  have z : ∀ v : Fin 3 → ℝ, dist3 v v ≤ D := fun v => by rw [dist3_same]; exact D0
  refine dist3_convex hx ?_ ?_ ?_
  · rw [dist3_comm]
    exact dist3_convex hp (z v1) (by rw [dist3_comm]; exact h12) h31
  · rw [dist3_comm]
    exact dist3_convex hp h12 (z v2) (by rw [dist3_comm]; exact h23)
  · rw [dist3_comm]
    exact dist3_convex hp (by rw [dist3_comm]; exact h31) h23 (z v3)

theorem onTriangle_first (v1 v2 v3 : Fin 3 → ℝ) : OnTriangle v1 v2 v3 v1 :=
  ⟨1, 0, 0, zero_le_one, le_rfl, le_rfl, by norm_num, fun a => by ring⟩

theorem onTriangle_segment {v1 v2 v3 a b : Fin 3 → ℝ} (h : (a = v1 ∧ b = v2) ∨ (a = v2 ∧ b = v3) ∨ (a = v3 ∧ b = v1)) {k : ℝ}
    (h0 : 0 ≤ k) (h1 : k ≤ 1) : OnTriangle v1 v2 v3 fun i => a i + (b i - a i) * k := by
  rcases h with ⟨rfl, rfl⟩ | ⟨rfl, rfl⟩ | ⟨rfl, rfl⟩
  · exact ⟨1 - k, k, 0, by linarith, h0, le_rfl, by ring, fun i => by ring⟩
  · exact ⟨0, 1 - k, k, le_rfl, by linarith, h0, by ring, fun i => by ring⟩
  · exact ⟨k, 0, 1 - k, h0, le_rfl, by linarith, by ring, fun i => by ring⟩

theorem pickCandidate_mem {F : Type} (A : RastArith F) (x y z : Fin 3 → F) :
    flPickCandidate A x y z = x ∨ flPickCandidate A x y z = y ∨ flPickCandidate A x y z = z := by
  unfold flPickCandidate
  split_ifs
  · exact Or.inl rfl
  · exact Or.inr (Or.inl rfl)
  · exact Or.inr (Or.inr rfl)

/-! ### Rounding -/

/-- A rounding that is fine enough for cells of size `s`, up to `N` cells from the origin of the map. -/
structure RasterFine (r : ℝ → ℝ) (u η s N root3 : ℝ) : Prop extends RoundErr r u η where
  u_pos : 0 < u
  s0 : 0 < s
  one_le : 1 ≤ N
  small : u * N ≤ 1 / 1000
  eta : η ≤ u
  eta_s : η ≤ u * s
  eta_s2 : η ≤ u * s ^ 2
  eta_inv : η * s ≤ u
  /-- the computed root of three -/
  root : |root3 - Real.sqrt 3| ≤ 2 * u

namespace RasterFine
variable {r : ℝ → ℝ} {u η s N root3 : ℝ} (h : RasterFine r u η s N root3)
include h

theorem u_le : u ≤ 1 / 1000 := (le_mul_of_one_le_right h.u0 h.one_le).trans h.small

theorem uN : u ≤ u * N := le_mul_of_one_le_right h.u0 h.one_le

/-- The computed centre of a cell. -/
theorem centre {dims : Dims} {t : Fin 3 → ℝ} {T : ℝ} (ht : ∀ a, |t a| ≤ T) {j : ZIdx}
    (hj : ∀ a, |((![j.1, j.2.1, j.2.2] : IVec) a : ℝ)| + 1 ≤ N) (a : Fin 3) :
    |flRastCentre (rastOver (roundedArith r) root3) (shiftedMap r dims s t) j a - worldCentre s t ![j.1, j.2.1, j.2.2] a| ≤
      9 * (u * (N * s)) + u * T := by
  have u0 := h.u0
  have s0 := h.s0
  have N0 : 0 < N := by linarith [h.one_le]
  have hu := h.u_le
  obtain ⟨k, hk⟩ : ∃ k : ℝ, k = ((![j.1, j.2.1, j.2.2] : IVec) a : ℝ) := ⟨_, rfl⟩
  have hkN : |k| + 1 ≤ N := hk ▸ hj a
  have e : flRastCentre (rastOver (roundedArith r) root3) (shiftedMap r dims s t) j a =
      r (r (r (r k + 1 / 2) * s) + t a) := by rw [hk]; rfl
  have e2 : worldCentre s t ![j.1, j.2.1, j.2.2] a = (k + 1 / 2) * s + t a := by
    rw [hk]; unfold worldCentre cellCentre; ring
  rw [e, e2]
  have uN := h.uN
  have hη := h.eta
  have hηs := h.eta_s
  have uN0 : 0 ≤ u * N := by positivity
  have k1 : |r k + 1 / 2 - (k + 1 / 2)| ≤ 2 * (u * N) := by
    rw [add_sub_add_right_eq_sub]
    have j1 := h.err k
    have j2 := mul_le_mul_of_nonneg_left (by linarith : |k| ≤ N) u0
    linarith
  have hk2 : |k + 1 / 2| ≤ N := by
    have := abs_add_le k (1 / 2)
    rw [abs_of_pos (by norm_num : (0 : ℝ) < 1 / 2)] at this
    linarith
  have k2 := h.near k1
  have k3 : u * (|k + 1 / 2| + 2 * (u * N)) ≤ u * N + 1 / 1000 * (2 * (u * N)) := by
    have j1 := mul_le_mul_of_nonneg_left hk2 u0
    have j2 : u * (2 * (u * N)) ≤ 1 / 1000 * (2 * (u * N)) := mul_le_mul_of_nonneg_right hu (by positivity)
    linarith
  have k4 : |r (r k + 1 / 2) * s - (k + 1 / 2) * s| ≤ 401 / 100 * (u * (N * s)) := by
    rw [← sub_mul, abs_mul, abs_of_pos s0]
    have : |r (r k + 1 / 2) - (k + 1 / 2)| ≤ 401 / 100 * (u * N) := by linarith
    calc _ ≤ 401 / 100 * (u * N) * s := mul_le_mul_of_nonneg_right this s0.le
      _ = _ := by ring
  have k5 := h.near k4
  have hk5 : |(k + 1 / 2) * s| ≤ N * s := by
    rw [abs_mul, abs_of_pos s0]
    exact mul_le_mul_of_nonneg_right hk2 s0.le
  have uNs0 : 0 ≤ u * (N * s) := by positivity
  have us : u * s ≤ u * (N * s) := mul_le_mul_of_nonneg_left (le_mul_of_one_le_left s0.le h.one_le) u0
  have k6 : u * (|(k + 1 / 2) * s| + 401 / 100 * (u * (N * s))) ≤ u * (N * s) + 1 / 1000 * (401 / 100 * (u * (N * s))) := by
    have j1 := mul_le_mul_of_nonneg_left hk5 u0
    have j2 : u * (401 / 100 * (u * (N * s))) ≤ 1 / 1000 * (401 / 100 * (u * (N * s))) :=
      mul_le_mul_of_nonneg_right hu (by positivity)
    linarith
  have k7 : |r (r (r k + 1 / 2) * s) + t a - ((k + 1 / 2) * s + t a)| ≤ 61 / 10 * (u * (N * s)) := by
    rw [add_sub_add_right_eq_sub]
    linarith
  have k8 := h.near k7
  have hk8 : |(k + 1 / 2) * s + t a| ≤ N * s + T := (abs_add_le _ _).trans (add_le_add hk5 (ht a))
  have k9 : u * (|(k + 1 / 2) * s + t a| + 61 / 10 * (u * (N * s))) ≤
      u * (N * s) + u * T + 1 / 1000 * (61 / 10 * (u * (N * s))) := by
    have j1 := mul_le_mul_of_nonneg_left hk8 u0
    have j2 : u * (61 / 10 * (u * (N * s))) ≤ 1 / 1000 * (61 / 10 * (u * (N * s))) :=
      mul_le_mul_of_nonneg_right hu (by positivity)
    linarith
  linarith

/-- The computed coordinate of a location, in cells. -/
theorem index {w t : ℝ} (hw : |w - t| ≤ (N - 1) * s) : |r (r (w - t) * r (1 / s)) - (w - t) / s| ≤ 7 * (u * N) := by
  have u0 := h.u0
  have s0 := h.s0
  have N1 := h.one_le
  have hu := h.u_le
  have uN := h.uN
  have hη := h.eta
  have hηs := h.eta_s
  obtain ⟨x, hx⟩ : ∃ x, x = w - t := ⟨_, rfl⟩
  rw [← hx] at hw ⊢
  have uN0 : 0 ≤ u * N := by positivity
  have k1 : |r x - x| ≤ u * N * s := by
    have j1 := h.err x
    have j2 := mul_le_mul_of_nonneg_left hw u0
    have e : u * ((N - 1) * s) = u * N * s - u * s := by ring
    linarith
  have k2 : |r (1 / s) - 1 / s| ≤ 2 * u * (1 / s) := by
    have j1 := h.err (1 / s)
    rw [abs_of_pos (by positivity : 0 < 1 / s)] at j1
    have j2 : η ≤ u * (1 / s) := by
      rw [mul_one_div, le_div_iff₀ s0]
      exact h.eta_inv
    linarith
  have hxN : |x| ≤ N * s := by
    have e : (N - 1) * s = N * s - s := by ring
    linarith
  have hrx : |r x| ≤ 1001 / 1000 * N * s := by
    have j := abs_add_le (r x - x) x
    rw [sub_add_cancel] at j
    have : u * N * s ≤ 1 / 1000 * N * s := by
      refine mul_le_mul_of_nonneg_right ?_ s0.le
      exact mul_le_mul_of_nonneg_right hu (by linarith)
    linarith
  have k3 : |r x * r (1 / s) - x / s| ≤ 31 / 10 * (u * N) := by
    have e : r x * r (1 / s) - x / s = r x * (r (1 / s) - 1 / s) + (r x - x) * (1 / s) := by ring
    rw [e]
    refine (abs_add_le _ _).trans ?_
    rw [abs_mul, abs_mul, abs_of_pos (by positivity : 0 < 1 / s)]
    have j1 : |r x| * |r (1 / s) - 1 / s| ≤ 1001 / 1000 * N * s * (2 * u * (1 / s)) :=
      mul_le_mul hrx k2 (abs_nonneg _) (by positivity)
    have j2 : |r x - x| * (1 / s) ≤ u * N * s * (1 / s) := mul_le_mul_of_nonneg_right k1 (by positivity)
    have e1 : 1001 / 1000 * N * s * (2 * u * (1 / s)) = 2002 / 1000 * (u * N) := by field_simp; ring
    have e2 : u * N * s * (1 / s) = u * N := by field_simp
    linarith
  have k4 := h.near k3
  have hxs : |x / s| ≤ N := by
    rw [abs_div, abs_of_pos s0, div_le_iff₀ s0]
    exact hxN
  have k5 : u * (|x / s| + 31 / 10 * (u * N)) ≤ u * N + 1 / 1000 * (31 / 10 * (u * N)) := by
    have j1 := mul_le_mul_of_nonneg_left hxs u0
    have j2 : u * (31 / 10 * (u * N)) ≤ 1 / 1000 * (31 / 10 * (u * N)) := mul_le_mul_of_nonneg_right hu (by positivity)
    linarith
  linarith

/-- The test for one cell: a small triangle with a point well within the radius hits, whatever its shape. -/
theorem hit {dims : Dims} {t v1 v2 v3 p : Fin 3 → ℝ} {B D : ℝ} {j : ZIdx} (hB1 : ∀ i, |v1 i| ≤ B) (hB2 : ∀ i, |v2 i| ≤ B)
    (hB3 : ∀ i, |v3 i| ≤ B) (hD : SidesAtMost D v1 v2 v3)
    (hn : NormalFits r u η s ((rastOver (roundedArith r) root3).cross (flVsub (rastOver (roundedArith r) root3) v2 v1)
      (flVsub (rastOver (roundedArith r) root3) v3 v1)))
    (hp : OnTriangle v1 v2 v3 p)
    (hd : dist3 p (flRastCentre (rastOver (roundedArith r) root3) (shiftedMap r dims s t) j) + D ≤
      Real.sqrt 3 / 2 * s - u * (2 * B + 90 * s)) :
    flHit (rastOver (roundedArith r) root3) (shiftedMap r dims s t) v1 v2 v3 j = true := by
  have u0 := h.u0
  have s0 := h.s0
  have hu := h.u_le
  have B0 : 0 ≤ B := (abs_nonneg _).trans (hB1 0)
  have D0 : 0 ≤ D := (dist3_nonneg _ _).trans hD.1
  obtain ⟨b1, b2⟩ := sqrt3_bounds
  have hs3 : Real.sqrt 3 / 2 * s ≤ s := by
    have := mul_le_mul_of_nonneg_right (by linarith : Real.sqrt 3 / 2 ≤ 1) s0.le
    linarith
  have uB : 0 ≤ u * B := by positivity
  have us : 0 ≤ u * s := by positivity
  unfold flHit
  obtain ⟨q, hq⟩ : ∃ q, q = flRastCentre (rastOver (roundedArith r) root3) (shiftedMap r dims s t) j := ⟨_, rfl⟩
  obtain ⟨n, hne⟩ : ∃ n, n = (rastOver (roundedArith r) root3).cross (flVsub (rastOver (roundedArith r) root3) v2 v1)
      (flVsub (rastOver (roundedArith r) root3) v3 v1) := ⟨_, rfl⟩
  rw [← hq] at hd
  rw [← hne] at hn
  simp only [← hq, ← hne]
  have hpq := dist3_nonneg p q
  refine decide_eq_true (?_ : (rastOver (roundedArith r) root3).sqNorm (flVsub (rastOver (roundedArith r) root3)
    (flClosestOnTriangle (rastOver (roundedArith r) root3) v1 v2 v3 n q) q) ≤
      (rastOver (roundedArith r) root3).radiusSq (r (s * (1 / 2))))
  refine radius_test h.toRoundErr hu s0 h.eta_s h.eta_s2 h.root ?_
  unfold flClosestOnTriangle
  split_ifs with hin
  · have hv1 : dist3 q v1 ≤ dist3 p q + D := by
      have t1 := dist3_triangle q p v1
      rw [dist3_comm q p] at t1
      have t2 := dist3_on_triangle hD (onTriangle_first v1 v2 v3) hp
      linarith
    have := rounded_plane_point (root3 := root3) h.toRoundErr hu s0 h.eta_s hn hB1 (by linarith : dist3 q v1 ≤ s)
    linarith
  · have side : ∀ {a b : Fin 3 → ℝ}, ((a = v1 ∧ b = v2) ∨ (a = v2 ∧ b = v3) ∨ (a = v3 ∧ b = v1)) →
        dist3 (flClosestOnSegment (rastOver (roundedArith r) root3) a b q) q ≤ Real.sqrt 3 / 2 * s - 40 * (u * s) := by
      intro a b hab
      have hBa : ∀ i, |a i| ≤ B := by
        rcases hab with ⟨rfl, -⟩ | ⟨rfl, -⟩ | ⟨rfl, -⟩
        · exact hB1
        · exact hB2
        · exact hB3
      have hda : dist3 b a ≤ D := by
        rw [dist3_comm]
        rcases hab with ⟨rfl, rfl⟩ | ⟨rfl, rfl⟩ | ⟨rfl, rfl⟩
        · exact hD.1
        · exact hD.2.1
        · exact hD.2.2
      obtain ⟨k, k0, k1, hk⟩ := rounded_edge_point (root3 := root3) (q := q) h.toRoundErr hu h.eta_s hBa
        (fun i => (abs_le_dist3 b a i).trans (by linarith : dist3 b a ≤ s))
      have hx := dist3_on_triangle hD hp (onTriangle_segment hab k0 k1)
      have t1 := dist3_triangle (flClosestOnSegment (rastOver (roundedArith r) root3) a b q) (fun i => a i + (b i - a i) * k) q
      have t2 := dist3_triangle (fun i => a i + (b i - a i) * k) p q
      linarith
    rcases pickCandidate_mem (rastOver (roundedArith r) root3) (flClosestOnSegment (rastOver (roundedArith r) root3) v1 v2 q)
      (flClosestOnSegment (rastOver (roundedArith r) root3) v2 v3 q) (flClosestOnSegment (rastOver (roundedArith r) root3) v3 v1 q)
      with e | e | e
    · rw [e]; exact side (Or.inl ⟨rfl, rfl⟩)
    · rw [e]; exact side (Or.inr (Or.inl ⟨rfl, rfl⟩))
    · rw [e]; exact side (Or.inr (Or.inr ⟨rfl, rfl⟩))

end RasterFine

theorem flMin3_rounded (r : ℝ → ℝ) (root3 a b c : ℝ) : flMin3 (rastOver (roundedArith r) root3) a b c = min (min a b) c :=
  flMin3_exact a b c

theorem flMax3_rounded (r : ℝ → ℝ) (root3 a b c : ℝ) : flMax3 (rastOver (roundedArith r) root3) a b c = max (max a b) c :=
  flMax3_exact a b c

end VGT
