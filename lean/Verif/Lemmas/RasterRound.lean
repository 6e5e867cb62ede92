import Verif.Lemmas.GradientRound
import Verif.Props.RasterizeFloat

/-!
Rounding errors of mesh rasterization: lengths of vectors, dot products, the projection onto a plane, points on an edge and
the comparison with the radius.
-/
set_option autoImplicit false

namespace VGT
open VGT.EDT VGT.Spec

/-- The operations of the rasterizer on top of any arithmetic: Eigen's `dot`, `cross` and `squaredNorm` without contraction and
from left to right (mesh_rasterizer.cpp:34-37, 49-54, 82-84, 131, 161); CRU's `VectorRejection` (mesh_rasterizer.cpp:69-71)
subtracts the projection, which is zero for a base of norm zero; `ClampValue` (mesh_rasterizer.cpp:53-54);
`std::pow(x * std::sqrt(3.0), 2.0)` (mesh_rasterizer.cpp:117-119).  The same as `ieeeRast`, which has IEEE numbers. -/
def rastOver {F : Type} (A : Arith F) (root3 : F) : RastArith F :=
  let dot : (Fin 3 → F) → (Fin 3 → F) → F := fun a b =>
    A.add (A.add (A.mul (a 0) (b 0)) (A.mul (a 1) (b 1))) (A.mul (a 2) (b 2))
  { A with
    dot := dot
    cross := fun a b => ![A.sub (A.mul (a 1) (b 2)) (A.mul (a 2) (b 1)), A.sub (A.mul (a 2) (b 0)) (A.mul (a 0) (b 2)),
      A.sub (A.mul (a 0) (b 1)) (A.mul (a 1) (b 0))]
    sqNorm := fun a => dot a a
    rejection := fun base v =>
      if A.lt A.zero (dot base base) then fun i => A.sub (v i) (A.mul (base i) (A.div (dot base v) (dot base base))) else v
    clamp01 := fun x => if A.lt A.one x then A.one else if A.lt x A.zero then A.zero else x
    radiusSq := fun r => A.mul (A.mul r root3) (A.mul r root3) }

theorem ieeeRast_eq (A : Arith Fl) (root3 : Fl) : ieeeRast A root3 = rastOver A root3 := rfl

/-- A map whose frame is translated by `t` (CRU: the origin transform and its inverse; one rounding each, as the other
operations of Eigen's products are multiplications by one and additions of zero). -/
noncomputable def shiftedMap (r : ℝ → ℝ) (dims : Dims) (s : ℝ) (t : Fin 3 → ℝ) : FlRastMap ℝ where
  initialized := true
  dims := dims
  s := s
  inv := r (1 / s)
  toGrid := fun p a => r (p a - t a)
  toWorld := fun p a => r (p a + t a)

/-! ### Lengths -/

/-- Euclidean length. -/
noncomputable def len3 (v : Fin 3 → ℝ) : ℝ := Real.sqrt (v 0 ^ 2 + v 1 ^ 2 + v 2 ^ 2)

theorem len3_nonneg (v : Fin 3 → ℝ) : 0 ≤ len3 v := Real.sqrt_nonneg _

theorem len3_sq (v : Fin 3 → ℝ) : len3 v ^ 2 = v 0 ^ 2 + v 1 ^ 2 + v 2 ^ 2 := Real.sq_sqrt (by positivity)

theorem dist3_eq_len3 (x y : Fin 3 → ℝ) : dist3 x y = len3 fun i => x i - y i := rfl

theorem len3_eq_dist3 (v : Fin 3 → ℝ) : len3 v = dist3 v fun _ => 0 := by
  simp [dist3, len3]

theorem abs_le_len3 (v : Fin 3 → ℝ) (i : Fin 3) : |v i| ≤ len3 v := by
  refine abs_le_of_sq_le_sq ?_ (len3_nonneg v)
  rw [len3_sq]
  fin_cases i
  · show v 0 ^ 2 ≤ _
    nlinarith [sq_nonneg (v 1), sq_nonneg (v 2)]
  · show v 1 ^ 2 ≤ _
    nlinarith [sq_nonneg (v 0), sq_nonneg (v 2)]
  · show v 2 ^ 2 ≤ _
    nlinarith [sq_nonneg (v 0), sq_nonneg (v 1)]

theorem abs_le_dist3 (x y : Fin 3 → ℝ) (i : Fin 3) : |x i - y i| ≤ dist3 x y := abs_le_len3 (fun i => x i - y i) i

theorem len3_le_two {v : Fin 3 → ℝ} {e : ℝ} (h : ∀ i, |v i| ≤ e) : len3 v ≤ 2 * e := by
  have he : 0 ≤ e := (abs_nonneg _).trans (h 0)
  refine Real.sqrt_le_iff.2 ⟨by positivity, ?_⟩
  have k : ∀ i, v i ^ 2 ≤ e ^ 2 := fun i => sq_le_sq' (abs_le.1 (h i)).1 (abs_le.1 (h i)).2
  nlinarith [k 0, k 1, k 2]

theorem dist3_le_two {x y : Fin 3 → ℝ} {e : ℝ} (h : ∀ i, |x i - y i| ≤ e) : dist3 x y ≤ 2 * e := len3_le_two h

theorem len3_scale (v : Fin 3 → ℝ) (k : ℝ) : len3 (fun i => v i * k) = len3 v * |k| := by
  unfold len3
  rw [show (v 0 * k) ^ 2 + (v 1 * k) ^ 2 + (v 2 * k) ^ 2 = (v 0 ^ 2 + v 1 ^ 2 + v 2 ^ 2) * k ^ 2 by ring,
    Real.sqrt_mul (by positivity), Real.sqrt_sq_eq_abs]

theorem len3_cauchy (a b : Fin 3 → ℝ) : |a 0 * b 0| + |a 1 * b 1| + |a 2 * b 2| ≤ len3 a * len3 b := by
  refine (le_abs_self _).trans (abs_le_of_sq_le_sq ?_ (mul_nonneg (len3_nonneg _) (len3_nonneg _)))
  rw [mul_pow, len3_sq, len3_sq, abs_mul, abs_mul, abs_mul, ← sq_abs (a 0), ← sq_abs (a 1), ← sq_abs (a 2),
    ← sq_abs (b 0), ← sq_abs (b 1), ← sq_abs (b 2)]
  nlinarith [sq_nonneg (|a 0| * |b 1| - |a 1| * |b 0|), sq_nonneg (|a 0| * |b 2| - |a 2| * |b 0|),
    sq_nonneg (|a 1| * |b 2| - |a 2| * |b 1|)]

/-! ### Products -/

/-- Eigen's dot product as computed. -/
def rdot (r : ℝ → ℝ) (a b : Fin 3 → ℝ) : ℝ := r (r (r (a 0 * b 0) + r (a 1 * b 1)) + r (a 2 * b 2))

theorem rdot_err {r : ℝ → ℝ} {u η : ℝ} (h : RoundErr r u η) (hu : u ≤ 1 / 1000) (a b : Fin 3 → ℝ) :
    |rdot r a b - dot3 a b| ≤ 4 * u * (|a 0 * b 0| + |a 1 * b 1| + |a 2 * b 2|) + 6 * η := by
  have u0 := h.u0
  have η0 := h.eta0
  obtain ⟨x, hx⟩ : ∃ x, x = a 0 * b 0 := ⟨_, rfl⟩
  obtain ⟨y, hy⟩ : ∃ y, y = a 1 * b 1 := ⟨_, rfl⟩
  obtain ⟨z, hz⟩ : ∃ z, z = a 2 * b 2 := ⟨_, rfl⟩
  unfold rdot dot3
  rw [← hx, ← hy, ← hz]
  have ex := h.err x
  have ey := h.err y
  have ez := h.err z
  have s1 : |r x + r y - (x + y)| ≤ u * (|x| + |y|) + 2 * η := by
    have := abs_add_le (r x - x) (r y - y)
    rw [show r x - x + (r y - y) = r x + r y - (x + y) by ring] at this
    linarith
  have t1 := h.near s1
  have axy := abs_add_le x y
  have u1 : u * (|x + y| + (u * (|x| + |y|) + 2 * η)) ≤ u * (|x| + |y|) + 1 / 1000 * (u * (|x| + |y|) + 2 * η) := by
    have k1 := mul_le_mul_of_nonneg_left axy u0
    have k2 : u * (u * (|x| + |y|) + 2 * η) ≤ 1 / 1000 * (u * (|x| + |y|) + 2 * η) :=
      mul_le_mul_of_nonneg_right hu (by positivity)
    linarith
  have s2 : |r (r x + r y) + r z - (x + y + z)| ≤ 2001 / 1000 * (u * (|x| + |y|)) + u * |z| + 4002 / 1000 * η := by
    have := abs_add_le (r (r x + r y) - (x + y)) (r z - z)
    rw [show r (r x + r y) - (x + y) + (r z - z) = r (r x + r y) + r z - (x + y + z) by ring] at this
    linarith
  have t2 := h.near s2
  have axyz := abs_add_le (x + y) z
  have w0 : 0 ≤ u * (|x| + |y|) := by positivity
  have w1 : 0 ≤ u * |z| := by positivity
  have u2 : u * (|x + y + z| + (2001 / 1000 * (u * (|x| + |y|)) + u * |z| + 4002 / 1000 * η)) ≤
      u * (|x| + |y|) + u * |z| + 1 / 1000 * (2001 / 1000 * (u * (|x| + |y|)) + u * |z| + 4002 / 1000 * η) := by
    have k1 : u * |x + y + z| ≤ u * (|x| + |y| + |z|) := mul_le_mul_of_nonneg_left (by linarith) u0
    have k2 : u * (2001 / 1000 * (u * (|x| + |y|)) + u * |z| + 4002 / 1000 * η) ≤
        1 / 1000 * (2001 / 1000 * (u * (|x| + |y|)) + u * |z| + 4002 / 1000 * η) :=
      mul_le_mul_of_nonneg_right hu (by positivity)
    linarith
  linarith

theorem dot3_self (n : Fin 3 → ℝ) : dot3 n n = len3 n ^ 2 := by
  rw [len3_sq]; unfold dot3; ring

theorem rdot_self {r : ℝ → ℝ} {u η : ℝ} (h : RoundErr r u η) (hu : u ≤ 1 / 1000) (n : Fin 3 → ℝ) :
    |rdot r n n - len3 n ^ 2| ≤ 4 * u * len3 n ^ 2 + 6 * η := by
  have := rdot_err h hu n n
  rw [dot3_self, abs_of_nonneg (mul_self_nonneg (n 0)), abs_of_nonneg (mul_self_nonneg (n 1)),
    abs_of_nonneg (mul_self_nonneg (n 2))] at this
  have e : n 0 * n 0 + n 1 * n 1 + n 2 * n 2 = len3 n ^ 2 := by rw [len3_sq]; ring
  rwa [e] at this

theorem rdot_abs {r : ℝ → ℝ} {u η : ℝ} (h : RoundErr r u η) (hu : u ≤ 1 / 1000) (a b : Fin 3 → ℝ) :
    |rdot r a b| ≤ (1 + 4 * u) * (len3 a * len3 b) + 6 * η := by
  have h1 := rdot_err h hu a b
  have h2 := len3_cauchy a b
  have h3 : |dot3 a b| ≤ |a 0 * b 0| + |a 1 * b 1| + |a 2 * b 2| := by
    unfold dot3
    exact (abs_add_le _ _).trans (add_le_add (abs_add_le _ _) le_rfl)
  have h4 := abs_add_le (rdot r a b - dot3 a b) (dot3 a b)
  rw [sub_add_cancel] at h4
  have h5 := mul_le_mul_of_nonneg_left h2 (by linarith [h.u0] : 0 ≤ 4 * u)
  linarith

/-- The computed projection onto a base is not longer than the vector, up to rounding, however inaccurate the base is. -/
theorem projection_len {r : ℝ → ℝ} {u η s : ℝ} (h : RoundErr r u η) (hu : u ≤ 1 / 1000) (n v : Fin 3 → ℝ)
    (hQ : 0 < rdot r n n) (h1 : 6 * η ≤ u * rdot r n n) (h2 : 6 * (η * len3 n) ≤ u * s * rdot r n n)
    (h3 : η * len3 n ≤ u * s) :
    len3 n * |r (rdot r n v / rdot r n n)| ≤ (1 + 12 * u) * len3 v + 3 * (u * s) := by
  have u0 := h.u0
  have N0 := len3_nonneg n
  have V0 := len3_nonneg v
  have hself := (abs_le.1 (rdot_self h hu n)).1
  have hP := rdot_abs h hu n v
  obtain ⟨Q, hQe⟩ : ∃ Q, Q = rdot r n n := ⟨_, rfl⟩
  obtain ⟨P, hPe⟩ : ∃ P, P = rdot r n v := ⟨_, rfl⟩
  obtain ⟨N, hNe⟩ : ∃ N, N = len3 n := ⟨_, rfl⟩
  obtain ⟨V, hVe⟩ : ∃ V, V = len3 v := ⟨_, rfl⟩
  rw [← hQe] at hQ h1 h2 hself ⊢
  rw [← hPe] at hP ⊢
  rw [← hNe] at h2 h3 hself N0 hP ⊢
  rw [← hVe] at hP V0 ⊢
  clear hQe hPe hNe hVe
  have us0 : 0 ≤ u * s := le_trans (by have := h.eta0; positivity) h3
  have hN2 : N ^ 2 ≤ (1 + 6 * u) * Q := by
    have k1 : N ^ 2 * (1 - 4 * u) ≤ (1 + u) * Q := by linarith
    have k2 : (1 + u) ≤ (1 + 6 * u) * (1 - 4 * u) := by nlinarith
    have k3 : N ^ 2 * (1 - 4 * u) ≤ (1 + 6 * u) * Q * (1 - 4 * u) := by
      have := mul_le_mul_of_nonneg_right k2 hQ.le
      nlinarith
    exact le_of_mul_le_mul_right k3 (by linarith)
  have hk := h.err (P / Q)
  have hk' : |r (P / Q)| ≤ (1 + u) * (|P| / Q) + η := by
    have k1 := abs_add_le (r (P / Q) - P / Q) (P / Q)
    rw [sub_add_cancel] at k1
    rw [abs_div, abs_of_pos hQ] at hk k1
    linarith
  have g1 : N * (|P| / Q) ≤ (1 + 4 * u) * (1 + 6 * u) * V + u * s := by
    rw [← mul_div_assoc, div_le_iff₀ hQ]
    have k1 : N * |P| ≤ N * ((1 + 4 * u) * (N * V) + 6 * η) := mul_le_mul_of_nonneg_left hP N0
    have k2 : (1 + 4 * u) * V * N ^ 2 ≤ (1 + 4 * u) * V * ((1 + 6 * u) * Q) :=
      mul_le_mul_of_nonneg_left hN2 (by positivity)
    nlinarith
  have g2 : N * |r (P / Q)| ≤ (1 + u) * (N * (|P| / Q)) + η * N := by
    have := mul_le_mul_of_nonneg_left hk' N0
    nlinarith
  have g3 : (1 + u) * (N * (|P| / Q)) ≤ (1 + u) * ((1 + 4 * u) * (1 + 6 * u) * V + u * s) :=
    mul_le_mul_of_nonneg_left g1 (by linarith)
  have g4 : (1 + u) * ((1 + 4 * u) * (1 + 6 * u)) ≤ 1 + 12 * u := by
    have : (1 + u) * ((1 + 4 * u) * (1 + 6 * u)) = 1 + 11 * u + u * (34 * u + 24 * u * u) := by ring
    have k : u * (34 * u + 24 * u * u) ≤ u * 1 := mul_le_mul_of_nonneg_left (by nlinarith) u0
    linarith
  have g5 := mul_le_mul_of_nonneg_right g4 V0
  have g6 : u * (u * s) ≤ 1 / 1000 * (u * s) := mul_le_mul_of_nonneg_right hu us0
  have e : (1 + u) * ((1 + 4 * u) * (1 + 6 * u) * V + u * s) = (1 + u) * ((1 + 4 * u) * (1 + 6 * u)) * V + u * s + u * (u * s) := by
    ring
  linarith

/-! ### The point that the code takes for the closest -/

/-- The normal is zero or long enough for its square not to underflow, and not too long. -/
def NormalFits (r : ℝ → ℝ) (u η s : ℝ) (n : Fin 3 → ℝ) : Prop :=
  rdot r n n ≤ 0 ∨ (6 * η ≤ u * rdot r n n ∧ 6 * (η * len3 n) ≤ u * s * rdot r n n ∧ η * len3 n ≤ u * s)

/-- The point in the plane of the triangle, whatever the computed normal: it is not farther from the query than the first
vertex, up to rounding. -/
theorem rounded_plane_point {r : ℝ → ℝ} {u η s B root3 : ℝ} (h : RoundErr r u η) (hu : u ≤ 1 / 1000) (hs : 0 < s) (hη : η ≤ u * s)
    {n v1 q : Fin 3 → ℝ} (hn : NormalFits r u η s n) (hB : ∀ i, |v1 i| ≤ B) (hd : dist3 q v1 ≤ s) :
    dist3 (flVadd (rastOver (roundedArith r) root3) v1 ((rastOver (roundedArith r) root3).rejection n
      (flVsub (rastOver (roundedArith r) root3) q v1))) q ≤ dist3 q v1 + u * (2 * B + 50 * s) := by
  have u0 := h.u0
  have η0 := h.eta0
  have B0 : 0 ≤ B := (abs_nonneg _).trans (hB 0)
  have us0 : 0 ≤ u * s := by positivity
  have uB0 : 0 ≤ u * B := by positivity
  obtain ⟨V0, hV0⟩ : ∃ V0, V0 = dist3 q v1 := ⟨_, rfl⟩
  have V00 : 0 ≤ V0 := by rw [hV0]; exact dist3_nonneg _ _
  obtain ⟨v, hv⟩ : ∃ v : Fin 3 → ℝ, v = fun i => r (q i - v1 i) := ⟨_, rfl⟩
  have hcomp : ∀ i, |q i - v1 i| ≤ V0 := fun i => hV0 ▸ abs_le_dist3 q v1 i
  rw [← hV0] at hd ⊢
  have uV : u * V0 ≤ u * s := mul_le_mul_of_nonneg_left hd u0
  have hvi : ∀ i, |v i - (q i - v1 i)| ≤ u * V0 + η := by
    intro i
    rw [hv]
    have k1 := h.err (q i - v1 i)
    have k2 := mul_le_mul_of_nonneg_left (hcomp i) u0
    linarith
  -- the vector that is subtracted
  obtain ⟨g, hg, hgl⟩ : ∃ g : Fin 3 → ℝ, (∀ i, |(rastOver (roundedArith r) root3).rejection n v i - (q i - v1 i - g i)| ≤
      21 / 10 * (u * V0) + 21 / 10 * (u * len3 g) + 31 / 10 * η) ∧
      len3 g ≤ V0 + 15 * (u * s) + 3 * η + 3 * (u * s) := by
    by_cases hQ : 0 < rdot r n n
    · obtain ⟨h1, h2, h3⟩ := hn.resolve_left (not_le.2 hQ)
      obtain ⟨k, hk⟩ : ∃ k, k = r (rdot r n v / rdot r n n) := ⟨_, rfl⟩
      have hlen := projection_len h hu n v hQ h1 h2 h3
      rw [← hk, ← len3_scale n k] at hlen
      obtain ⟨g, hg⟩ : ∃ g : Fin 3 → ℝ, g = fun i => n i * k := ⟨_, rfl⟩
      rw [← hg] at hlen
      have hvlen : len3 v ≤ V0 + 2 * (u * V0 + η) := by
        have t := dist3_triangle v (fun i => q i - v1 i) (fun _ => 0)
        rw [← len3_eq_dist3, ← len3_eq_dist3] at t
        have t2 := dist3_le_two hvi
        have t3 : len3 (fun i => q i - v1 i) = V0 := hV0.symm
        linarith
      refine ⟨g, fun i => ?_, ?_⟩
      · have e : (rastOver (roundedArith r) root3).rejection n v i = r (v i - r (g i)) := by
          show (if decide (0 < rdot r n n) = true then fun i => r (v i - r (n i * r (rdot r n v / rdot r n n))) else v) i = _
          rw [if_pos (by simpa using hQ), hg, hk]
        rw [e]
        have gi := abs_le_len3 g i
        have k1 := h.err (g i)
        have k2 := mul_le_mul_of_nonneg_left gi u0
        have k3 : |v i - r (g i) - (q i - v1 i - g i)| ≤ u * V0 + u * len3 g + 2 * η := by
          have := abs_sub (v i - (q i - v1 i)) (r (g i) - g i)
          rw [show v i - (q i - v1 i) - (r (g i) - g i) = v i - r (g i) - (q i - v1 i - g i) by ring] at this
          linarith [hvi i]
        have k4 := h.near k3
        have k5 : |q i - v1 i - g i| ≤ V0 + len3 g := (abs_sub _ _).trans (add_le_add (hcomp i) gi)
        have k6 : u * (|q i - v1 i - g i| + (u * V0 + u * len3 g + 2 * η)) ≤
            u * V0 + u * len3 g + 1 / 1000 * (u * V0 + u * len3 g + 2 * η) := by
          have j1 := mul_le_mul_of_nonneg_left k5 u0
          have j2 : u * (u * V0 + u * len3 g + 2 * η) ≤ 1 / 1000 * (u * V0 + u * len3 g + 2 * η) :=
            mul_le_mul_of_nonneg_right hu (by have := len3_nonneg g; positivity)
          linarith
        have j3 : 0 ≤ u * V0 := by positivity
        have j4 : 0 ≤ u * len3 g := mul_nonneg u0 (len3_nonneg g)
        linarith
      · have k1 : (1 + 12 * u) * len3 v ≤ (1 + 12 * u) * (V0 + 2 * (u * V0 + η)) :=
          mul_le_mul_of_nonneg_left hvlen (by linarith)
        have k2 : u * (u * V0 + η) ≤ 1 / 1000 * (u * V0 + η) := mul_le_mul_of_nonneg_right hu (by positivity)
        have e : (1 + 12 * u) * (V0 + 2 * (u * V0 + η)) = V0 + 14 * (u * V0) + 2 * η + 24 * (u * (u * V0 + η)) := by ring
        linarith
    · refine ⟨fun _ => 0, fun i => ?_, ?_⟩
      · have e : (rastOver (roundedArith r) root3).rejection n v i = v i := by
          show (if decide (0 < rdot r n n) = true then fun i => r (v i - r (n i * r (rdot r n v / rdot r n n))) else v) i = _
          rw [if_neg (by simpa using hQ)]
        rw [e, sub_zero]
        have := hvi i
        have j3 : 0 ≤ u * V0 := by positivity
        have j4 := mul_nonneg u0 (len3_nonneg fun _ => 0)
        linarith
      · have : len3 (fun _ => 0) = 0 := by simp [len3]
        rw [this]
        positivity
  have G0 := len3_nonneg g
  have hG : len3 g ≤ 11 / 10 * s := by
    have : u * s ≤ 1 / 1000 * s := mul_le_mul_of_nonneg_right hu hs.le
    linarith
  have uG : u * len3 g ≤ 11 / 10 * (u * s) := by
    have := mul_le_mul_of_nonneg_left hG u0
    linarith
  have hx : ∀ i, |flVadd (rastOver (roundedArith r) root3) v1 ((rastOver (roundedArith r) root3).rejection n v) i - (q i - g i)| ≤
      u * B + 12 * (u * s) := by
    intro i
    have e : flVadd (rastOver (roundedArith r) root3) v1 ((rastOver (roundedArith r) root3).rejection n v) i =
        r (v1 i + (rastOver (roundedArith r) root3).rejection n v i) := rfl
    rw [e]
    have k1 : |v1 i + (rastOver (roundedArith r) root3).rejection n v i - (q i - g i)| ≤ 76 / 10 * (u * s) := by
      have := hg i
      rw [show v1 i + (rastOver (roundedArith r) root3).rejection n v i - (q i - g i) =
        (rastOver (roundedArith r) root3).rejection n v i - (q i - v1 i - g i) by ring]
      linarith
    have k2 := h.near k1
    have k3 : |q i - g i| ≤ B + (s + 11 / 10 * s) := by
      have j1 := abs_add_le (v1 i) (q i - v1 i - g i)
      have j2 := abs_sub (q i - v1 i) (g i)
      rw [show v1 i + (q i - v1 i - g i) = q i - g i by ring] at j1
      linarith [hB i, hcomp i, abs_le_len3 g i]
    have k4 : u * (|q i - g i| + 76 / 10 * (u * s)) ≤ u * B + 21 / 10 * (u * s) + 1 / 1000 * (76 / 10 * (u * s)) := by
      have j1 := mul_le_mul_of_nonneg_left k3 u0
      have j2 : u * (76 / 10 * (u * s)) ≤ 1 / 1000 * (76 / 10 * (u * s)) := mul_le_mul_of_nonneg_right hu (by positivity)
      linarith
    linarith
  have hfin := dist3_le_two hx
  have t := dist3_triangle (flVadd (rastOver (roundedArith r) root3) v1 ((rastOver (roundedArith r) root3).rejection n v))
    (fun i => q i - g i) q
  have e2 : dist3 (fun i => q i - g i) q = len3 g := by
    rw [dist3_eq_len3]
    unfold len3
    congr 1
    ring
  have e3 : flVsub (rastOver (roundedArith r) root3) q v1 = v := by rw [hv]; rfl
  rw [e3]
  linarith

/-- The point on an edge is a point of the edge, up to rounding, whatever the computed ratio. -/
theorem rounded_edge_point {r : ℝ → ℝ} {u η s B root3 : ℝ} (h : RoundErr r u η) (hu : u ≤ 1 / 1000) (hη : η ≤ u * s)
    {a b q : Fin 3 → ℝ} (hB : ∀ i, |a i| ≤ B) (hd : ∀ i, |b i - a i| ≤ s) :
    ∃ k, 0 ≤ k ∧ k ≤ 1 ∧ dist3 (flClosestOnSegment (rastOver (roundedArith r) root3) a b q)
      (fun i => a i + (b i - a i) * k) ≤ u * (2 * B + 20 * s) := by
  have u0 := h.u0
  have η0 := h.eta0
  have B0 : 0 ≤ B := (abs_nonneg _).trans (hB 0)
  have s0 : 0 ≤ s := (abs_nonneg _).trans (hd 0)
  obtain ⟨x, hx⟩ : ∃ x, x = (rastOver (roundedArith r) root3).div ((rastOver (roundedArith r) root3).dot
    (flVsub (rastOver (roundedArith r) root3) b a) (flVsub (rastOver (roundedArith r) root3) q a))
    ((rastOver (roundedArith r) root3).sqNorm (flVsub (rastOver (roundedArith r) root3) b a)) := ⟨_, rfl⟩
  obtain ⟨k, hk⟩ : ∃ k, k = (rastOver (roundedArith r) root3).clamp01 x := ⟨_, rfl⟩
  have hk01 : 0 ≤ k ∧ k ≤ 1 := by
    have e : k = if (1 : ℝ) < x then 1 else if x < 0 then 0 else x := by
      rw [hk]
      show (if decide ((1 : ℝ) < x) = true then (1 : ℝ) else if decide (x < 0) = true then 0 else x) = _
      simp only [decide_eq_true_eq]
    rw [e]
    split_ifs with h1 h2
    · exact ⟨zero_le_one, le_rfl⟩
    · exact ⟨le_rfl, zero_le_one⟩
    · exact ⟨not_lt.1 h2, not_lt.1 h1⟩
  refine ⟨k, hk01.1, hk01.2, ?_⟩
  have us0 : 0 ≤ u * s := by positivity
  have hcoord : ∀ i, |flClosestOnSegment (rastOver (roundedArith r) root3) a b q i - (a i + (b i - a i) * k)| ≤ u * B + 8 * (u * s) := by
    intro i
    have e : flClosestOnSegment (rastOver (roundedArith r) root3) a b q i = r (a i + r (r (b i - a i) * k)) := by
      rw [hk, hx]
      rfl
    rw [e]
    have k1 := h.err (b i - a i)
    have k2 := mul_le_mul_of_nonneg_left (hd i) u0
    have k3 : |r (b i - a i) * k - (b i - a i) * k| ≤ 2 * (u * s) := by
      rw [← sub_mul, abs_mul, abs_of_nonneg hk01.1]
      calc |r (b i - a i) - (b i - a i)| * k ≤ |r (b i - a i) - (b i - a i)| * 1 :=
            mul_le_mul_of_nonneg_left hk01.2 (abs_nonneg _)
        _ ≤ 2 * (u * s) := by linarith
    have k4 : |(b i - a i) * k| ≤ s := by
      rw [abs_mul, abs_of_nonneg hk01.1]
      calc |b i - a i| * k ≤ |b i - a i| * 1 := mul_le_mul_of_nonneg_left hk01.2 (abs_nonneg _)
        _ ≤ s := by linarith [hd i]
    have k5 := h.near k3
    have k6 : u * (|(b i - a i) * k| + 2 * (u * s)) ≤ u * s + 1 / 1000 * (2 * (u * s)) := by
      have j1 := mul_le_mul_of_nonneg_left k4 u0
      have j2 : u * (2 * (u * s)) ≤ 1 / 1000 * (2 * (u * s)) := mul_le_mul_of_nonneg_right hu (by positivity)
      linarith
    have k7 : |a i + r (r (b i - a i) * k) - (a i + (b i - a i) * k)| ≤ 41 / 10 * (u * s) := by
      rw [add_sub_add_left_eq_sub]
      linarith
    have k8 := h.near k7
    have k9 : |a i + (b i - a i) * k| ≤ B + s := (abs_add_le _ _).trans (add_le_add (hB i) k4)
    have k10 : u * (|a i + (b i - a i) * k| + 41 / 10 * (u * s)) ≤ u * B + u * s + 1 / 1000 * (41 / 10 * (u * s)) := by
      have j1 := mul_le_mul_of_nonneg_left k9 u0
      have j2 : u * (41 / 10 * (u * s)) ≤ 1 / 1000 * (41 / 10 * (u * s)) := mul_le_mul_of_nonneg_right hu (by positivity)
      linarith
    linarith
  have := dist3_le_two hcoord
  linarith

/-! ### The comparison with the radius -/

theorem sqrt3_bounds : (173 / 100 : ℝ) ≤ Real.sqrt 3 ∧ Real.sqrt 3 ≤ 1733 / 1000 :=
  ⟨Real.le_sqrt_of_sq_le (by norm_num), Real.sqrt_le_iff.2 ⟨by norm_num, by norm_num⟩⟩

/-- The computed square of the radius. -/
theorem radius_err {r : ℝ → ℝ} {u η s root3 : ℝ} (h : RoundErr r u η) (hu : u ≤ 1 / 1000) (hs : 0 < s) (hη : η ≤ u * s)
    (hη2 : η ≤ u * s ^ 2) (hroot : |root3 - Real.sqrt 3| ≤ 2 * u) :
    |(rastOver (roundedArith r) root3).radiusSq (r (s * (1 / 2))) - 3 / 4 * s ^ 2| ≤ 13 * (u * s ^ 2) := by
  have u0 := h.u0
  have η0 := h.eta0
  obtain ⟨b1, b2⟩ := sqrt3_bounds
  have us0 : 0 ≤ u * s := by positivity
  have us2 : 0 ≤ u * s ^ 2 := by positivity
  have uss : u * s ≤ 1 / 1000 * s := mul_le_mul_of_nonneg_right hu hs.le
  obtain ⟨x, hx⟩ : ∃ x, x = r (s * (1 / 2)) := ⟨_, rfl⟩
  obtain ⟨ρ, hρ⟩ : ∃ ρ, ρ = Real.sqrt 3 := ⟨_, rfl⟩
  have e3 : ρ ^ 2 = 3 := by rw [hρ]; exact Real.sq_sqrt (by norm_num)
  rw [← hρ] at hroot b1 b2
  show |r (r (r (s * (1 / 2)) * root3) * r (r (s * (1 / 2)) * root3)) - 3 / 4 * s ^ 2| ≤ _
  rw [← hx]
  have h1 : |x - s / 2| ≤ 3 / 2 * (u * s) := by
    have := h.err (s * (1 / 2))
    rw [abs_of_pos (by positivity : 0 < s * (1 / 2)), ← hx, show s * (1 / 2) = s / 2 by ring] at this
    linarith
  have h2 : |x * root3 - s / 2 * ρ| ≤ 37 / 10 * (u * s) := by
    have e : x * root3 - s / 2 * ρ = (x - s / 2) * ρ + x * (root3 - ρ) := by ring
    have k1 : |(x - s / 2) * ρ| ≤ 3 / 2 * (u * s) * (1733 / 1000) := by
      rw [abs_mul, abs_of_pos (by linarith : 0 < ρ)]
      exact mul_le_mul h1 b2 (by linarith) (by positivity)
    have hx1 : |x| ≤ 51 / 100 * s := by
      have := abs_add_le (x - s / 2) (s / 2)
      rw [sub_add_cancel, abs_of_pos (by positivity : 0 < s / 2)] at this
      linarith
    have k2 : |x * (root3 - ρ)| ≤ 51 / 100 * s * (2 * u) := by
      rw [abs_mul]
      exact mul_le_mul hx1 hroot (abs_nonneg _) (by positivity)
    rw [e]
    have := abs_add_le ((x - s / 2) * ρ) (x * (root3 - ρ))
    linarith
  have h3 := h.near h2
  have hy : |s / 2 * ρ| ≤ 867 / 1000 * s := by
    rw [abs_of_pos (by positivity)]
    have := mul_le_mul_of_nonneg_left b2 (by positivity : 0 ≤ s / 2)
    linarith
  have h4 : u * (|s / 2 * ρ| + 37 / 10 * (u * s)) ≤ 867 / 1000 * (u * s) + 1 / 1000 * (37 / 10 * (u * s)) := by
    have j1 := mul_le_mul_of_nonneg_left hy u0
    have j2 : u * (37 / 10 * (u * s)) ≤ 1 / 1000 * (37 / 10 * (u * s)) := mul_le_mul_of_nonneg_right hu (by positivity)
    linarith
  obtain ⟨y, hye⟩ : ∃ y, y = r (x * root3) := ⟨_, rfl⟩
  rw [← hye] at h3 ⊢
  have h5 : |y - s / 2 * ρ| ≤ 56 / 10 * (u * s) := by linarith
  have hy2 : |y| ≤ 873 / 1000 * s := by
    have := abs_add_le (y - s / 2 * ρ) (s / 2 * ρ)
    rw [sub_add_cancel] at this
    linarith
  have h6 : |y * y - 3 / 4 * s ^ 2| ≤ 98 / 10 * (u * s ^ 2) := by
    have e : y * y - 3 / 4 * s ^ 2 = (y - s / 2 * ρ) * (y + s / 2 * ρ) := by linear_combination s ^ 2 / 4 * e3
    rw [e, abs_mul]
    have k : |y + s / 2 * ρ| ≤ 174 / 100 * s := (abs_add_le _ _).trans (by linarith)
    calc |y - s / 2 * ρ| * |y + s / 2 * ρ| ≤ 56 / 10 * (u * s) * (174 / 100 * s) := mul_le_mul h5 k (abs_nonneg _) (by positivity)
      _ = 56 / 10 * (174 / 100) * (u * s ^ 2) := by ring
      _ ≤ 98 / 10 * (u * s ^ 2) := mul_le_mul_of_nonneg_right (by norm_num) us2
  have h7 := h.near h6
  rw [abs_of_pos (by positivity : 0 < 3 / 4 * s ^ 2)] at h7
  have h8 : u * (98 / 10 * (u * s ^ 2)) ≤ 1 / 1000 * (98 / 10 * (u * s ^ 2)) := mul_le_mul_of_nonneg_right hu (by positivity)
  linarith

/-- The computed square of a distance. -/
theorem sq_distance_err {r : ℝ → ℝ} {u η s root3 : ℝ} (h : RoundErr r u η) (hu : u ≤ 1 / 1000) (hs : 0 < s) (hη : η ≤ u * s)
    (hη2 : η ≤ u * s ^ 2) {c q : Fin 3 → ℝ} {W : ℝ} (hW : dist3 c q ≤ W) (hWs : W ≤ s) :
    (rastOver (roundedArith r) root3).sqNorm (flVsub (rastOver (roundedArith r) root3) c q) ≤ W ^ 2 + 19 * (u * s ^ 2) := by
  have u0 := h.u0
  have W0 : 0 ≤ W := (dist3_nonneg c q).trans hW
  have us0 : 0 ≤ u * s := by positivity
  have uss : u * s ≤ 1 / 1000 * s := mul_le_mul_of_nonneg_right hu hs.le
  obtain ⟨d, hd⟩ : ∃ d : Fin 3 → ℝ, d = fun i => r (c i - q i) := ⟨_, rfl⟩
  have e : (rastOver (roundedArith r) root3).sqNorm (flVsub (rastOver (roundedArith r) root3) c q) = rdot r d d := by
    rw [hd]; rfl
  rw [e]
  have hL : len3 d ≤ W + 4 * (u * s) := by
    have hi : ∀ i, |d i - (c i - q i)| ≤ 2 * (u * s) := by
      intro i
      rw [hd]
      have k1 := h.err (c i - q i)
      have k2 := mul_le_mul_of_nonneg_left (((abs_le_dist3 c q i).trans hW).trans hWs) u0
      linarith
    have t := dist3_triangle d (fun i => c i - q i) (fun _ => 0)
    rw [← len3_eq_dist3, ← len3_eq_dist3] at t
    have t2 := dist3_le_two hi
    have t3 : len3 (fun i => c i - q i) = dist3 c q := rfl
    linarith
  have hL0 := len3_nonneg d
  have hL2 : len3 d ^ 2 ≤ W ^ 2 + 81 / 10 * (u * s ^ 2) := by
    have k1 : len3 d ^ 2 ≤ (W + 4 * (u * s)) ^ 2 := pow_le_pow_left₀ hL0 hL 2
    have k2 : W * (u * s) ≤ s * (u * s) := mul_le_mul_of_nonneg_right hWs us0
    have k3 : u * s * (u * s) ≤ 1 / 1000 * s * (u * s) := mul_le_mul_of_nonneg_right uss us0
    have e1 : (W + 4 * (u * s)) ^ 2 = W ^ 2 + 8 * (W * (u * s)) + 16 * (u * s * (u * s)) := by ring
    have e2 : s * (u * s) = u * s ^ 2 := by ring
    have e3 : 1 / 1000 * s * (u * s) = 1 / 1000 * (u * s ^ 2) := by ring
    rw [e2] at k2
    rw [e3] at k3
    have : 0 ≤ u * s ^ 2 := by positivity
    linarith
  have hr := (abs_le.1 (rdot_self h hu d)).2
  have hW2 : W ^ 2 ≤ s ^ 2 := pow_le_pow_left₀ W0 hWs 2
  have us2 : 0 ≤ u * s ^ 2 := by positivity
  have k4 : u * len3 d ^ 2 ≤ u * (s ^ 2 + 81 / 10 * (1 / 1000 * s ^ 2)) := by
    refine mul_le_mul_of_nonneg_left ?_ u0
    have : u * s ^ 2 ≤ 1 / 1000 * s ^ 2 := mul_le_mul_of_nonneg_right hu (by positivity)
    linarith
  have e5 : u * (s ^ 2 + 81 / 10 * (1 / 1000 * s ^ 2)) = 10081 / 10000 * (u * s ^ 2) := by ring
  rw [e5] at k4
  linarith

/-- A point that is nearer than half the diagonal of a cell, by a little, passes the comparison. -/
theorem radius_test {r : ℝ → ℝ} {u η s root3 : ℝ} (h : RoundErr r u η) (hu : u ≤ 1 / 1000) (hs : 0 < s) (hη : η ≤ u * s)
    (hη2 : η ≤ u * s ^ 2) (hroot : |root3 - Real.sqrt 3| ≤ 2 * u) {c q : Fin 3 → ℝ}
    (hd : dist3 c q ≤ Real.sqrt 3 / 2 * s - 40 * (u * s)) :
    (rastOver (roundedArith r) root3).sqNorm (flVsub (rastOver (roundedArith r) root3) c q) ≤
      (rastOver (roundedArith r) root3).radiusSq (r (s * (1 / 2))) := by
  have u0 := h.u0
  obtain ⟨b1, b2⟩ := sqrt3_bounds
  have us0 : 0 ≤ u * s := by positivity
  have hd0 := (dist3_nonneg c q).trans hd
  have hs3 : Real.sqrt 3 / 2 * s ≤ 867 / 1000 * s := mul_le_mul_of_nonneg_right (by linarith) hs.le
  have hs3' : 173 / 200 * s ≤ Real.sqrt 3 / 2 * s := mul_le_mul_of_nonneg_right (by linarith) hs.le
  have h1 := sq_distance_err (root3 := root3) h hu hs hη hη2 hd (by linarith)
  have h2 := (abs_le.1 (radius_err h hu hs hη hη2 hroot)).1
  have e3 : Real.sqrt 3 ^ 2 = 3 := Real.sq_sqrt (by norm_num)
  obtain ⟨H, hH⟩ : ∃ H, H = Real.sqrt 3 / 2 * s := ⟨_, rfl⟩
  have eH : H ^ 2 = 3 / 4 * s ^ 2 := by rw [hH]; linear_combination s ^ 2 / 4 * e3
  rw [← hH] at h1 hd0 hs3 hs3'
  obtain ⟨σ, hσ⟩ : ∃ σ, σ = 40 * (u * s) := ⟨_, rfl⟩
  rw [← hσ] at h1 hd0
  have σ0 : 0 ≤ σ := by rw [hσ]; positivity
  have k1 : (H - σ) ^ 2 ≤ H ^ 2 - H * σ := by nlinarith
  have k2 : 173 / 200 * s * σ ≤ H * σ := mul_le_mul_of_nonneg_right hs3' σ0
  have k3 : 173 / 200 * s * σ = 346 / 10 * (u * s ^ 2) := by rw [hσ]; ring
  have us2 : 0 ≤ u * s ^ 2 := by positivity
  linarith

/-- A point that passes the comparison is not farther than half the diagonal of a cell, up to rounding. -/
theorem radius_test_conv {r : ℝ → ℝ} {u η s root3 : ℝ} (h : RoundErr r u η) (hu : u ≤ 1 / 1000) (hs : 0 < s) (hη : η ≤ u * s)
    (hη2 : η ≤ u * s ^ 2) (hroot : |root3 - Real.sqrt 3| ≤ 2 * u) {c q : Fin 3 → ℝ}
    (hle : (rastOver (roundedArith r) root3).sqNorm (flVsub (rastOver (roundedArith r) root3) c q) ≤
      (rastOver (roundedArith r) root3).radiusSq (r (s * (1 / 2)))) :
    dist3 c q ≤ Real.sqrt 3 / 2 * s + 40 * (u * s) := by
  have u0 := h.u0
  obtain ⟨b1, b2⟩ := sqrt3_bounds
  have us0 : 0 ≤ u * s := by positivity
  have uss : u * s ≤ 1 / 1000 * s := mul_le_mul_of_nonneg_right hu hs.le
  have us2 : 0 ≤ u * s ^ 2 := by positivity
  have uss2 : u * s ^ 2 ≤ 1 / 1000 * s ^ 2 := mul_le_mul_of_nonneg_right hu (by positivity)
  have hs3 : Real.sqrt 3 / 2 * s ≤ 867 / 1000 * s := mul_le_mul_of_nonneg_right (by linarith) hs.le
  have hs3' : 173 / 200 * s ≤ Real.sqrt 3 / 2 * s := mul_le_mul_of_nonneg_right (by linarith) hs.le
  have h2 := (abs_le.1 (radius_err h hu hs hη hη2 hroot)).2
  obtain ⟨d, hd⟩ : ∃ d : Fin 3 → ℝ, d = fun i => r (c i - q i) := ⟨_, rfl⟩
  have e : (rastOver (roundedArith r) root3).sqNorm (flVsub (rastOver (roundedArith r) root3) c q) = rdot r d d := by
    rw [hd]; rfl
  rw [e] at hle
  have hr := (abs_le.1 (rdot_self h hu d)).1
  have e3 : Real.sqrt 3 ^ 2 = 3 := Real.sq_sqrt (by norm_num)
  obtain ⟨H, hH⟩ : ∃ H, H = Real.sqrt 3 / 2 * s := ⟨_, rfl⟩
  have eH : H ^ 2 = 3 / 4 * s ^ 2 := by rw [hH]; linear_combination s ^ 2 / 4 * e3
  rw [← hH] at hs3 hs3' ⊢
  have L0 := len3_nonneg d
  -- the length of the computed difference
  have hL2 : len3 d ^ 2 ≤ H ^ 2 + 23 * (u * s ^ 2) := by
    have k1 : len3 d ^ 2 * (1 - 4 * u) ≤ 3 / 4 * s ^ 2 + 19 * (u * s ^ 2) := by linarith
    have k2 : 3 / 4 * s ^ 2 + 19 * (u * s ^ 2) ≤ (3 / 4 * s ^ 2 + 23 * (u * s ^ 2)) * (1 - 4 * u) := by
      have : u * (u * s ^ 2) ≤ 1 / 1000 * (u * s ^ 2) := mul_le_mul_of_nonneg_right hu us2
      nlinarith
    rw [eH]
    exact le_of_mul_le_mul_right (k1.trans k2) (by linarith)
  have hL : len3 d ≤ H + 14 * (u * s) := by
    refine (abs_le_of_sq_le_sq' ?_ (by linarith)).2
    have : 23 * (u * s ^ 2) ≤ 2 * H * (14 * (u * s)) := by
      have k := mul_le_mul_of_nonneg_right hs3' (by positivity : 0 ≤ 28 * (u * s))
      have e : 173 / 200 * s * (28 * (u * s)) = 173 / 200 * 28 * (u * s ^ 2) := by ring
      linarith
    nlinarith [sq_nonneg (14 * (u * s))]
  -- back to the exact difference
  have hW0 := dist3_nonneg c q
  have hback : dist3 c q ≤ len3 d + 2 * (u * dist3 c q + η) := by
    have hi : ∀ i, |(c i - q i) - d i| ≤ u * dist3 c q + η := by
      intro i
      rw [hd, abs_sub_comm]
      have k1 := h.err (c i - q i)
      have k2 := mul_le_mul_of_nonneg_left (abs_le_dist3 c q i) u0
      linarith
    have t := dist3_triangle (fun i => c i - q i) d (fun _ => 0)
    rw [← len3_eq_dist3, ← len3_eq_dist3] at t
    have t2 := dist3_le_two hi
    have t3 : len3 (fun i => c i - q i) = dist3 c q := rfl
    linarith
  have hrough : dist3 c q ≤ 2 * s := by
    have : u * dist3 c q ≤ 1 / 1000 * dist3 c q := mul_le_mul_of_nonneg_right hu hW0
    linarith
  have := mul_le_mul_of_nonneg_left hrough u0
  linarith

end VGT
