import Verif.Lemmas.FairWalk
import Verif.Props.AccurateAll
import Verif.Props.CameraRound

/-!
C89: cells are marked free where rays pass, and only there, in any arithmetic that is right up to a small error, for sensors in the grid.
-/
set_option autoImplicit false

namespace VGT
open VGT.EDT VGT.Spec VGT.Par

/-! ### Indices -/

/-- Plain numbers: the number of which the index is the floor. -/
theorem walk_index_number {u η e s v x m y : ℚ} (hu : 0 ≤ u) (hu1 : 9000 * u ≤ 1) (he : 0 < e) (hs0 : 0 < s) (hη : η ≤ u) (hs : |s - e| ≤ u * e)
    (hv : |v * e - 1| ≤ 4 * u) (hm : |m - x * v| ≤ u * |x * v| + η) (hy : |y - m| ≤ u * |m| + η) :
    |y * s - x| ≤ 4 * (3 * u * |x|) + 3 * u * s := by
  have hx := abs_nonneg x
  have hux : 0 ≤ u * |x| := mul_nonneg hu hx
  have hus : 0 ≤ u * s := mul_nonneg hu hs0.le
  have hux1 := mul_le_mul_of_nonneg_right hu1 hx
  have hux2 := mul_le_mul_of_nonneg_right hu1 hux
  have hus2 := mul_le_mul_of_nonneg_right hu1 hus
  have hve : |v| * e ≤ 1 + 4 * u := by
    have h1 : |v * e| ≤ 1 + 4 * u := near_bound hv (by rw [abs_one])
    rwa [abs_mul, abs_of_pos he] at h1
  have hvs : |v * s - 1| ≤ 51 / 10 * u := by
    rw [show v * s - 1 = v * (s - e) + (v * e - 1) by ring]
    have h1 := abs_add_le (v * (s - e)) (v * e - 1)
    rw [abs_mul] at h1
    have h2 := mul_le_mul_of_nonneg_left hs (abs_nonneg v)
    have h3 := mul_le_mul_of_nonneg_right hve hu
    have h4 := mul_le_mul_of_nonneg_right hu1 hu
    linarith
  have hxvs : |x * v * s - x| ≤ 51 / 10 * (u * |x|) := by
    rw [show x * v * s - x = x * (v * s - 1) by ring, abs_mul]
    have := mul_le_mul_of_nonneg_left hvs hx
    linarith
  have hxvs' : |x * v| * s ≤ 1001 / 1000 * |x| := by
    have h1 := near_bound hxvs le_rfl
    rw [abs_mul (x * v), abs_of_pos hs0] at h1
    linarith
  have hηs := mul_le_mul_of_nonneg_right hη hs0.le
  have m1 : |m * s - x * v * s| ≤ 1001 / 1000 * (u * |x|) + u * s := by
    rw [show m * s - x * v * s = (m - x * v) * s by ring, abs_mul, abs_of_pos hs0]
    have h1 := mul_le_mul_of_nonneg_right hm hs0.le
    have h2 := mul_le_mul_of_nonneg_left hxvs' hu
    linarith
  have m2 : |m| * s ≤ 1002 / 1000 * |x| + u * s := by
    have h1 := abs_add_le (m * s - x * v * s) (x * v * s)
    rw [sub_add_cancel, abs_mul m, abs_of_pos hs0, abs_mul (x * v), abs_of_pos hs0] at h1
    linarith
  have y1 : |y * s - m * s| ≤ 1002 / 1000 * (u * |x|) + 11 / 10 * (u * s) := by
    rw [← sub_mul, abs_mul, abs_of_pos hs0]
    have h1 := mul_le_mul_of_nonneg_right hy hs0.le
    have h2 := mul_le_mul_of_nonneg_left m2 hu
    linarith
  rw [show y * s - x = (y * s - m * s) + ((m * s - x * v * s) + (x * v * s - x)) by ring]
  have h1 := abs_add_le (y * s - m * s) ((m * s - x * v * s) + (x * v * s - x))
  have h2 := abs_add_le (m * s - x * v * s) (x * v * s - x)
  linarith

section
variable {u η M s n N E : ℚ}

theorem walk_index_ge (h : RayScale u η M s n N E) {x y : ℚ} {i m : ℤ} (y1 : (i : ℚ) ≤ y) (y3 : |y * s - x| ≤ 4 * (u * |x|) + u * s)
    (hm : 0 ≤ m) (hmn : (m : ℚ) ≤ n) (hmi : m ≤ i) : (m : ℚ) * s - (4 * (u * m * s) + 2 * (u * s)) ≤ x := by
  have hs := h.s_pos
  have hu := h.u_pos
  have hm' : (0 : ℚ) ≤ m := by exact_mod_cast hm
  have hmi' : (m : ℚ) ≤ i := by exact_mod_cast hmi
  have hys := mul_le_mul_of_nonneg_right (hmi'.trans y1) hs.le
  have hus : 0 < u * s := mul_pos hu hs
  have hu1 := h.u_le
  have hu2 := h.un_le
  have y3' := abs_le.1 y3
  have hums : 0 ≤ u * m * s := by positivity
  rcases lt_or_ge x 0 with hx | hx
  · rw [abs_of_neg hx] at y3'
    by_contra hcon
    push Not at hcon
    -- `x (1 - 4 u) ≥ m s - u s`
    have hms : 0 ≤ (m : ℚ) * s := by positivity
    have h1 : -(u * s) ≤ x * (1 - 4 * u) := by linarith
    have hm0 : m = 0 := by
      by_contra hne
      have h2 : (1 : ℚ) ≤ m := by exact_mod_cast (show 1 ≤ m by omega)
      have h3 := mul_le_mul_of_nonneg_right h2 hs.le
      have h4 := mul_le_mul_of_nonneg_right (show u ≤ 1 / 9 by linarith) hs.le
      have h5 : x * (1 - 4 * u) ≤ 0 := mul_nonpos_of_nonpos_of_nonneg hx.le (by linarith)
      linarith
    rw [hm0] at hcon
    simp only [Int.cast_zero, mul_zero, zero_mul, zero_sub, zero_add] at hcon
    have h6 : x * (1 - 4 * u) ≤ x * (1 / 2) := mul_le_mul_of_nonpos_left (by linarith) hx.le
    linarith
  · rw [abs_of_nonneg hx] at y3'
    rcases le_total ((m : ℚ) * s) x with h1 | h1
    · linarith
    · have := mul_le_mul_of_nonneg_left h1 hu.le
      linarith

theorem walk_index_lt (h : RayScale u η M s n N E) {x y : ℚ} {i m : ℤ} (y2 : y < (i : ℚ) + 1) (y3 : |y * s - x| ≤ 4 * (u * |x|) + u * s)
    (hm : 0 ≤ m) (hmn : (m : ℚ) ≤ n) (hmi : i < m) : x ≤ (m : ℚ) * s + (4 * (u * m * s) + 2 * (u * s)) := by
  have hs := h.s_pos
  have hu := h.u_pos
  have hm' : (0 : ℚ) ≤ m := by exact_mod_cast hm
  have hmi' : (i : ℚ) + 1 ≤ m := by exact_mod_cast hmi
  have hys := mul_le_mul_of_nonneg_right (y2.le.trans hmi') hs.le
  have hus : 0 < u * s := mul_pos hu hs
  have hu1 := h.u_le
  have hu2 := h.un_le
  have y3' := abs_le.1 y3
  have hums : 0 ≤ u * m * s := by positivity
  have hms : 0 ≤ (m : ℚ) * s := by positivity
  rcases lt_or_ge x 0 with hx | hx
  · linarith
  · rw [abs_of_nonneg hx] at y3'
    by_contra hcon
    push Not at hcon
    have h1 : x * (1 - 4 * u) ≤ m * s + u * s := by linarith
    have h2 := mul_lt_mul_of_pos_right hcon (show 0 < 1 - 4 * u by linarith)
    have h3 : u * m ≤ u * n := mul_le_mul_of_nonneg_left hmn hu.le
    have h4 : (16 * (u * m) + 8 * u) * (u * s) ≤ 1 * (u * s) := mul_le_mul_of_nonneg_right (by linarith) hus.le
    have e : ((m : ℚ) * s + (4 * (u * m * s) + 2 * (u * s))) * (1 - 4 * u) =
        m * s + 2 * (u * s) - (16 * (u * m) + 8 * u) * (u * s) := by ring
    linarith

end

section
variable {F : Type} {A : Arith F} {sqrt : F → F} {val kept : F → Fl} {u η M e B s N : ℚ} {g : RayGrid F} {c : Camera3} {x : Fin 3 → ℚ}
  {o p : Fin 3 → F} {vo vp : Fin 3 → ℚ} {l l' : ℚ}

theorem walk_index_near (H : AccurateArith A sqrt val kept u η M) (S : Room u η M e B) (G : GridGiven val u e B g) (hs0 : 0 < s)
    (hs : |s - e| ≤ u * e) {P : Fin 3 → F} {q : ℚ} {i : IVec} (hi : flIndex A g P = some i) {a : Fin 3} (hP : val (P a) = .fin q) (hq : |q| ≤ 14 * B) :
    ∃ y, (i a : ℚ) ≤ y ∧ y < (i a : ℚ) + 1 ∧ |y * s - q| ≤ 4 * (3 * u * |q|) + 3 * u * s := by
  obtain ⟨v, hv, hv'⟩ := G.inv
  have hB := S.B_pos; have hu := S.u_nonneg; have hu1 := S.u_le; have he := S.e_pos; have hη := S.η_tiny
  obtain ⟨hM1, hM2⟩ := S.M_inv
  have hM9 := S.M_ten
  have hM12 := S.M_one
  have hMB := S.M_B
  have hve : |v| * e ≤ 1 + 4 * u := by
    have h1 : |v * e| ≤ 1 + 4 * u := near_bound hv' (by rw [abs_one])
    rwa [abs_mul, abs_of_pos he] at h1
  have hvM : |v| ≤ M := by
    refine le_trans ?_ hM2
    rw [le_div_iff₀ he]
    linarith
  have hqv : |q * v| * e ≤ 15 * B := by
    rw [abs_mul, mul_assoc]
    have := mul_le_mul hq (show |v| * e ≤ 1001 / 1000 by linarith) (mul_nonneg (abs_nonneg v) he.le) (by linarith)
    linarith
  have hqvM : |q * v| ≤ 15 * (B / e) := by
    rw [← mul_div_assoc, le_div_iff₀ he]
    exact hqv
  have hBe : 0 < B / e := div_pos hB he
  obtain ⟨m, m1, m2, -⟩ := H.mul _ _ _ _ hP hv (by linarith) hvM (by linarith)
  have hmM : |m| ≤ M := by
    have h1 := near_bound m2 le_rfl
    have h2 := mul_le_mul_of_nonneg_right hu1 (abs_nonneg (q * v))
    have h3 : (1 : ℚ) ≤ B / e := by rw [le_div_iff₀ he]; linarith [S.e_le]
    norm_num at hη
    linarith
  obtain ⟨y, y1, y2⟩ := H.store _ _ m1 hmM
  obtain ⟨y', h1, h2⟩ := H.toInt _ _ (axes3_some.1 hi a)
  rw [y1] at h1
  cases h1
  have h3 := Int.floor_le y
  have h4 := Int.lt_floor_add_one y
  rw [h2] at h3 h4
  exact ⟨y, h3, h4, walk_index_number hu hu1 he hs0 S.η_u hs hv' m2 y2⟩

/-- The measures of the walk. -/
def walkErr (u s N : ℚ) : ℚ := 3 * u * N ^ 2 * s / 2 + 3 * (3 * u * N * s)

theorem walkRoom_scale (S : Room u η M e B) (V : WalkRoom u η M e B N g.dims) (hs : |s - e| ≤ u * e) :
    0 < s ∧ RayScale (3 * u) η M s N N (walkErr u s N) := by
  have hu := S.u_pos; have hu1 := S.u_le; have he := S.e_pos
  have hue := mul_le_mul_of_nonneg_right hu1 he.le
  have hs' := abs_le.1 hs
  have hs0 : 0 < s := by linarith
  have hN := V.N_ge
  have hN0 : 0 < N := by linarith
  refine ⟨hs0, RayScale.wide hs0 (by linarith) S.η_nonneg hN le_rfl ?_ ?_ (by linarith [S.η_u]) ?_ V.M_N ?_ (by linarith [V.M_u])⟩
  · have := V.small
    have h1 : 0 ≤ u * N * N := by positivity
    have h2 : 0 ≤ u * N := by positivity
    linarith
  · have := V.fine; linarith
  · have h1 : e ≤ 2 * s := by linarith
    have h2 := mul_le_mul_of_nonneg_left h1 hu.le
    have := V.η_e
    have := mul_pos hu hs0
    linarith
  · have h1 : s ≤ 2 * e := by linarith
    have h2 := mul_le_mul_of_nonneg_left h1 hN0.le
    have := V.M_e
    linarith

/-- Plain numbers: the end of a ray that is cut, and its speed. -/
theorem cut_number {u η e' B q sh d m z vo vp : ℚ} (hu : 0 ≤ u) (hu1 : 9000 * u ≤ 1) (hB : 0 < B) (hη : η ≤ u * B) (hηe : 16 * (η * B) ≤ u * e')
    (hη1 : 2 * η ≤ u * e') (hηu : η ≤ u) (hη0 : 0 ≤ η) (hq0 : 0 ≤ q) (hq1 : q ≤ 1) (hvo : |vo| ≤ 2 * B) (hvp : |vp| ≤ 8 * B)
    (hd : |d - (vp - vo)| ≤ u * (|vp| + |vo|) + η) (hsh : |sh - q| ≤ u * q + η) (hm : |m - d * sh| ≤ u * |d * sh| + η)
    (hz : |z - (vo + m)| ≤ u * (|vo| + |m|) + η) :
    |q * d - (z - vo)| ≤ 4 * (u * |z - vo|) + 2 * (u * |vo|) + 4 * (u * e') ∧ |z - (vo + (vp - vo) * q)| ≤ 60 * (u * B) := by
  have huB := mul_nonneg hu hB.le
  have huB1 := mul_le_mul_of_nonneg_right hu1 hB.le
  have hd' : |d| ≤ 101 / 10 * B := by
    have h1 : |vp - vo| ≤ 10 * B := (abs_sub _ _).trans (by linarith)
    have h2 := near_bound hd h1
    have h3 := mul_le_mul_of_nonneg_left (show |vp| + |vo| ≤ 10 * B by linarith) hu
    linarith
  have hd0 := abs_nonneg d
  -- the share
  have s1 : |d * sh - q * d| ≤ u * (q * |d|) + η * |d| := by
    rw [show d * sh - q * d = d * (sh - q) by ring, abs_mul]
    have := mul_le_mul_of_nonneg_left hsh hd0
    linarith
  have hηd : η * |d| ≤ 101 / 10 * (η * B) := by
    have := mul_le_mul_of_nonneg_left hd' hη0
    linarith
  have hqd0 : 0 ≤ q * |d| := mul_nonneg hq0 hd0
  have hqd : |q * d| = q * |d| := by rw [abs_mul, abs_of_nonneg hq0]
  have hqdB : q * |d| ≤ 101 / 10 * B := (mul_le_of_le_one_left hd0 hq1).trans hd'
  have s2 : |d * sh| ≤ q * |d| + (u * (q * |d|) + η * |d|) := near_bound s1 hqd.le
  have m1 : |m| ≤ |d * sh| + (u * |d * sh| + η) := near_bound hm le_rfl
  have hvo0 := abs_nonneg vo
  -- relative
  have t : |z - vo - q * d| ≤ (u * (|vo| + |m|) + η) + (u * |d * sh| + η) + (u * (q * |d|) + η * |d|) := by
    rw [show z - vo - q * d = (z - (vo + m)) + ((m - d * sh) + (d * sh - q * d)) by ring]
    have h1 := abs_add_le (z - (vo + m)) ((m - d * sh) + (d * sh - q * d))
    have h2 := abs_add_le (m - d * sh) (d * sh - q * d)
    linarith
  set Q := q * |d| with hQ
  set D := |d * sh| with hD
  have hD0 : 0 ≤ D := abs_nonneg _
  have hm0 := abs_nonneg m
  have hηd0 : 0 ≤ η * |d| := mul_nonneg hη0 hd0
  have k1 := mul_le_mul_of_nonneg_right hu1 hqd0
  have k2 := mul_le_mul_of_nonneg_right hu1 hD0
  have D1 : D ≤ 9001 / 9000 * Q + η * |d| := by linarith
  have m2 : |m| ≤ 1001 / 1000 * Q + 2 * (η * |d|) + η := by linarith
  have huD := mul_le_mul_of_nonneg_left D1 hu
  have hum := mul_le_mul_of_nonneg_left m2 hu
  have kη : u * (η * |d|) ≤ 1 / 9000 * (η * |d|) := mul_le_mul_of_nonneg_right (by linarith) hηd0
  have kη' : u * η ≤ 1 / 9000 * η := mul_le_mul_of_nonneg_right (by linarith) hη0
  have huQ : 0 ≤ u * Q := mul_nonneg hu hqd0
  have huvo : 0 ≤ u * |vo| := mul_nonneg hu hvo0
  have t2 : |z - vo - q * d| ≤ u * |vo| + 301 / 100 * (u * Q) + 11 / 10 * (η * |d|) + 21 / 10 * η := by linarith
  constructor
  · rw [abs_sub_comm]
    have hQz : Q ≤ |z - vo| + |z - vo - q * d| := by
      have h1 := abs_sub_abs_le_abs_sub (q * d) (z - vo)
      rw [hqd, abs_sub_comm (q * d)] at h1
      linarith
    have h2 := mul_le_mul_of_nonneg_left hQz hu
    have h3 := mul_le_mul_of_nonneg_right hu1 (abs_nonneg (z - vo - q * d))
    linarith
  · have h1 : |q * d - (vp - vo) * q| ≤ u * (|vp| + |vo|) + η := by
      rw [show q * d - (vp - vo) * q = q * (d - (vp - vo)) by ring, abs_mul, abs_of_nonneg hq0]
      exact (mul_le_of_le_one_left (abs_nonneg _) hq1).trans hd
    rw [show z - (vo + (vp - vo) * q) = (z - vo - q * d) + (q * d - (vp - vo) * q) by ring]
    have h2 := abs_add_le (z - vo - q * d) (q * d - (vp - vo) * q)
    have h3 := mul_le_mul_of_nonneg_left (show |vp| + |vo| ≤ 10 * B by linarith) hu
    have h4 := mul_le_mul_of_nonneg_left hvo hu
    have h5 := mul_le_mul_of_nonneg_left hqdB hu
    have h6 : η * B ≤ u * B := mul_le_mul_of_nonneg_right hηu hB.le
    linarith

/-- Everything known about the walk of a ray: `ve` is the computed end, `q` the share of the ray that is not cut, `d` the computed speed. -/
structure FairCast (A : Arith F) (val kept : F → Fl) (u s N B : ℚ) (range : Fl) (o p final : Fin 3 → F) (vo vp ve d : Fin 3 → ℚ) (q l : ℚ) : Prop where
  q_pos : 0 < q
  q_le : q ≤ 1
  final : ∀ a, val (final a) = .fin (ve a)
  final_le : ∀ a, |ve a| ≤ 14 * B
  ray : ∀ a, val (A.sub (p a) (o a)) = .fin (d a)
  ray_kept : ∀ a, kept (A.sub (p a) (o a)) = .fin (d a)
  ray_le : ∀ a, |d a| ≤ 101 / 10 * B
  speed : ∀ a, |q * d a - (ve a - vo a)| ≤ 4 * (u * |ve a - vo a|) + 2 * (u * |vo a|) + 5 * (u * s)
  near : ∀ a, |ve a - onSeg vo vp q a| ≤ 60 * (u * B)
  short : ∀ r, range = .fin r → q * (l + 279 * (u * B)) ≤ r + 300 * (u * B)
  long : ∀ r τ, range = .fin r → 0 ≤ τ → τ ≤ 1 → τ * l ≤ r - 100 * (u * B) → τ ≤ q
  whole : range = .pinf → q = 1

theorem fairCast (H : AccurateArith A sqrt val kept u η M) (W : FairWalk A sqrt val kept u η M) (S : Room u η M e B)
    (V : WalkRoom u η M e B N g.dims) (hs : |s - e| ≤ u * e) (R : FairRay A sqrt val kept u B c x o p vo vp l l') {range : F}
    (hr : (c.range = .pinf ∧ kept range = .pinf) ∨ ∃ r r', c.range = .fin r ∧ kept range = .fin r' ∧ 0 < r ∧ 0 ≤ r' ∧ |r' - r| ≤ u * r + η)
    (hst : kept range = val range) (hr0 : kept range ≠ .fin 0) :
    ∃ ve d q, FairCast A val kept u s N B c.range o p (flFinalPoint A o p (flLength A sqrt o p) range) vo vp ve d q l := by
  have hu := S.u_nonneg; have hu1 := S.u_le; have hB := S.B_pos; have hηB := S.η_B; have hηt := S.η_tiny; have hη0 := S.η_nonneg
  have he := S.e_pos
  obtain ⟨hM1, hM2⟩ := S.M_ten
  have huB := mul_nonneg hu hB.le
  have huB1 := mul_le_mul_of_nonneg_right hu1 hB.le
  have hue := mul_le_mul_of_nonneg_right hu1 he.le
  have hs' := abs_le.1 hs
  have hse : 4 * (u * e) ≤ 5 * (u * s) := by
    have := mul_le_mul_of_nonneg_left (show 4 * e ≤ 5 * s by linarith) hu
    linarith
  have hll : l' = l := by
    have h1 := R.stored
    have h2 := R.length
    unfold flLength at h1 h2
    dsimp only at h1 h2
    rw [W.root, h2] at h1
    exact (Fl.fin.inj h1).symm
  have hray : ∀ a, ∃ d, val (A.sub (p a) (o a)) = .fin d ∧ |d - (vp a - vo a)| ≤ u * (|vp a| + |vo a|) + η := fun a =>
    H.sub _ _ _ _ (R.val_p a) (R.val_o a) (by linarith [R.p_le a, R.o_le a])
  choose d d1 d2 using hray
  have d3 : ∀ a, |d a| ≤ 101 / 10 * B := fun a => by
    have hb : |vp a| + |vo a| ≤ 10 * B := by linarith [R.p_le a, R.o_le a]
    have k1 := mul_le_mul_of_nonneg_left hb hu
    exact (near_bound (d2 a) ((abs_sub _ _).trans hb)).trans (by linarith)
  unfold flFinalPoint
  by_cases hclip : flClipped A (flLength A sqrt o p) range = true
  · rw [if_pos hclip]
    unfold flClipped at hclip
    rw [H.lt, R.stored] at hclip
    rcases hr with ⟨-, hk⟩ | ⟨r, r', hcr, hk, hrpos, hr'0, hrr⟩
    · rw [hk] at hclip; cases hclip
    · have hlt : r' < l := by
        rw [hk, hll] at hclip
        simpa [Fl.lt] using hclip
      have hl14 := R.l_le
      have hr'pos : 0 < r' := lt_of_le_of_ne hr'0 fun h => hr0 (by rw [hk, ← h])
      have hl0 : 0 < l := hr'pos.trans hlt
      have hq0 : 0 < r' / l := div_pos hr'pos hl0
      have hq1 : r' / l ≤ 1 := (div_le_one hl0).2 hlt.le
      have hrr' := abs_le.1 hrr
      have hur := mul_le_mul_of_nonneg_right hu1 hrpos.le
      have hr15 : r ≤ 15 * B := by linarith
      have hurB := mul_le_mul_of_nonneg_left hr15 hu
      obtain ⟨sh, s1, s2⟩ := H.div _ _ _ _ (hst.symm.trans hk) R.length hl0.ne' (by rw [abs_of_pos hr'pos]; linarith) (by rw [abs_of_pos hl0]; linarith)
        (by rw [abs_of_pos hq0]; linarith [S.M_one])
      rw [abs_of_pos hq0] at s2
      have s3 : |sh| ≤ 101 / 100 := by
        have h1 : |r' / l| ≤ 1 := by rw [abs_of_pos hq0]; exact hq1
        have h2 := near_bound s2 h1
        have h3 := mul_le_mul_of_nonneg_left hq1 hu
        norm_num at hηt
        linarith
      have key : ∀ a, ∃ z, val (A.add (o a) (A.mul (A.sub (p a) (o a)) (A.div range (flLength A sqrt o p)))) = .fin z ∧ |z| ≤ 14 * B ∧
          |r' / l * d a - (z - vo a)| ≤ 4 * (u * |z - vo a|) + 2 * (u * |vo a|) + 4 * (u * e) ∧ |z - (vo a + (vp a - vo a) * (r' / l))| ≤ 60 * (u * B) := fun a => by
        have d4 : |d a * sh| ≤ 103 / 10 * B := by
          rw [abs_mul]
          have := mul_le_mul (d3 a) s3 (abs_nonneg _) (by linarith)
          linarith
        obtain ⟨m, m1, m2, -⟩ := H.mul _ _ _ _ (d1 a) s1 (by linarith [d3 a]) (by linarith [S.M_one]) (by linarith)
        have k2 := mul_le_mul_of_nonneg_right hu1 (abs_nonneg (d a * sh))
        have m3 : |m| ≤ 21 / 2 * B := (near_bound m2 d4).trans (by linarith)
        have hsum : |vo a| + |m| ≤ 25 / 2 * B := by linarith [R.o_le a]
        obtain ⟨z, z1, z2, -⟩ := H.add _ _ _ _ (R.val_o a) m1 (by linarith)
        have k3 := mul_le_mul_of_nonneg_left hsum hu
        exact ⟨z, z1, (near_bound z2 ((abs_add_le _ _).trans hsum)).trans (by linarith),
          cut_number hu hu1 hB hηB V.η_B V.η_e S.η_u hη0 hq0.le hq1 (R.o_le a) (R.p_le a) (d2 a) s2 m2 z2⟩
      choose z z1 z2 z3 z4 using key
      refine ⟨z, d, r' / l, hq0, hq1, z1, z2, d1, fun a => (W.difference _ _).trans (d1 a), d3, fun a => (z3 a).trans (by linarith), fun a => ?_,
        fun r1 h1 => ?_, fun r1 τ h1 t0 t1 ht => ?_, fun h1 => by rw [hcr] at h1; cases h1⟩
      · have e1 : onSeg vo vp (r' / l) a = vo a + (vp a - vo a) * (r' / l) := by unfold onSeg; ring
        rw [e1]
        exact z4 a
      · rw [hcr] at h1
        cases h1
        rw [mul_add, div_mul_cancel₀ _ hl0.ne']
        have := mul_le_mul_of_nonneg_right hq1 (show 0 ≤ 279 * (u * B) by positivity)
        linarith
      · rw [hcr] at h1
        cases h1
        rw [le_div_iff₀ hl0]
        linarith
  · rw [if_neg hclip]
    refine ⟨vp, d, 1, one_pos, le_rfl, R.val_p, fun a => by linarith [R.p_le a], d1, fun a => (W.difference _ _).trans (d1 a), d3, fun a => ?_, fun a => ?_,
      fun r1 h1 => ?_, fun _ τ _ _ t1 _ => t1, fun _ => rfl⟩
    · rw [one_mul]
      refine (d2 a).trans ?_
      have h1 : |vp a| ≤ |vp a - vo a| + |vo a| := by have := abs_add_le (vp a - vo a) (vo a); rwa [sub_add_cancel] at this
      have h2 := mul_le_mul_of_nonneg_left h1 hu
      have h3 := mul_nonneg hu (abs_nonneg (vp a - vo a))
      have := V.η_e
      have := mul_nonneg hu he.le
      linarith
    · have e1 : onSeg vo vp 1 a = vp a := by unfold onSeg; ring
      rw [e1, sub_self, abs_zero]
      positivity
    · rw [one_mul]
      unfold flClipped at hclip
      rw [H.lt, R.stored, hll] at hclip
      rcases hr with ⟨h2, -⟩ | ⟨r, r', hcr, hk, hrpos, hr'0, hrr⟩
      · rw [h1] at h2; cases h2
      · rw [h1] at hcr
        cases hcr
        rw [hk] at hclip
        have hle : l ≤ r' := by simpa [Fl.lt] using hclip
        have hrr' := abs_le.1 hrr
        by_cases hsmall : r1 ≤ 15 * B
        · have := mul_le_mul_of_nonneg_left hsmall hu
          linarith
        · push Not at hsmall
          linarith [R.l_le]

/-- The ray is set up for the walk. -/
theorem fairSetup (H : AccurateArith A sqrt val kept u η M) (S : Room u η M e B)
    (G : GridGiven val u e B g) (V : WalkRoom u η M e B N g.dims) (hs : |s - e| ≤ u * e)
    (R : FairRay A sqrt val kept u B c x o p vo vp l l') {final : Fin 3 → F} {ve d : Fin 3 → ℚ} {q : ℚ} {range : Fl}
    (C : FairCast A val kept u s N B range o p final vo vp ve d q l) {i f : IVec} (hi : flIndex A g o = some i) (hf : flIndex A g final = some f)
    (hin : CellInGrid (axisCells g.dims) i) :
    RaySetup (3 * u) η M s N N (walkErr u s N) g.dims i f vo (fun a => ve a - vo a) d q := by
  obtain ⟨hs0, h⟩ := walkRoom_scale S V hs
  have hB := S.B_pos
  have hu := S.u_pos; have he := S.e_pos; have hu1 := S.u_le
  have hus := mul_pos h.u_pos h.s_pos
  have hw := h.w_pos; have husw := h.us_le
  have hdim : ∀ a, (i a : ℚ) + 3 ≤ N := fun a => by
    have h3 : (i a : ℚ) + 1 ≤ axisCells g.dims a := by exact_mod_cast (hin a).2
    linarith [V.dims a]
  have hnear : ∀ a, NearCell (3 * u) s N (i a) (vo a) := fun a => by
    obtain ⟨y, y1, y2, y3⟩ := walk_index_near H S G hs0 hs hi (R.val_o a) (by linarith [R.o_le a])
    have h1 := walk_index_ge h y1 y3 (hin a).1 (by linarith [hdim a]) le_rfl
    have h2 := walk_index_lt h y2 y3 (m := i a + 1) (by have := (hin a).1; omega) (by push_cast; linarith [hdim a]) (by omega)
    have h3 := mul_le_mul_of_nonneg_right (hdim a) hus.le
    push_cast at h2
    constructor <;> linarith
  have hfin : ∀ a (m : ℤ), 0 ≤ m → (m : ℚ) ≤ N →
      (m ≤ f a → m * s - 5 * (3 * u * N * s) ≤ ve a) ∧ (f a < m → ve a ≤ m * s + 5 * (3 * u * N * s)) := fun a m h0 hm => by
    obtain ⟨y, y1, y2, y3⟩ := walk_index_near H S G hs0 hs hf (C.final a) (C.final_le a)
    have h3 := mul_le_mul_of_nonneg_right hm hus.le
    constructor
    · intro hmf
      have := walk_index_ge h y1 y3 h0 hm hmf
      linarith
    · intro hmf
      have := walk_index_lt h y2 y3 h0 hm hmf
      linarith
  refine ⟨h, V.dims, hin, hnear, fun a => ?_, C.q_pos, C.q_le, fun a m h0 hm hmf => ?_, fun a m h0 hm hmf => ?_, fun a => ?_⟩
  · unfold SpeedOf
    refine (C.speed a).trans ?_
    obtain ⟨n1, n2⟩ := hnear a
    have hi0 : (0 : ℚ) ≤ i a := by exact_mod_cast (hin a).1
    have h1 := mul_le_mul_of_nonneg_right (hdim a) hs0.le
    have h2 := mul_nonneg hi0 hs0.le
    have hwle := h.w_le
    have h3 : |vo a| ≤ N * s := by rw [abs_le]; constructor <;> linarith
    have h4 := mul_le_mul_of_nonneg_left h3 hu.le
    have h5 := mul_nonneg hu.le (abs_nonneg (ve a - vo a))
    linarith
  · have := (hfin a m h0 hm).1 hmf
    linarith
  · have := (hfin a m h0 hm).2 hmf
    linarith
  · have h1 := mul_le_mul_of_nonneg_left (C.ray_le a) S.η_nonneg
    have h2 := V.η_B
    have hue := mul_le_mul_of_nonneg_right hu1 he.le
    have hs' := abs_le.1 hs
    have h3 := mul_le_mul_of_nonneg_left (show e ≤ 2 * s by linarith) hu.le
    linarith

theorem cast_of_ray {range : F} {ms : List Mark} {i : IVec} (hi : flIndex A g o = some i) (hin : CellInGrid (axisCells g.dims) i)
    (h : flRaycast A g o p (flLength A sqrt o p) range = some ms) :
    flCastFrom A g o (flFinalPoint A o p (flLength A sqrt o p) range) (fun a => A.sub (p a) (o a)) (flClipped A (flLength A sqrt o p) range) = some ms := by
  unfold flRaycast at h
  dsimp only at h
  rw [flStart_in_any hi hin] at h
  exact h

theorem walkErr_tol (S : Room u η M e B) (V : WalkRoom u η M e B N g.dims) (hs : |s - e| ≤ u * e) :
    32 * walkErr u s N + 106 * (u * B) + N * (u * e) ≤ freeTol u e B N := by
  have hu := S.u_pos; have hu1 := S.u_le; have he := S.e_pos; have hB := S.B_pos
  have hN : 0 < N := by linarith [V.N_ge]
  have hue := mul_le_mul_of_nonneg_right hu1 he.le
  have hs' := abs_le.1 hs
  have h1 : s ≤ 9001 / 9000 * e := by linarith
  have h2 := mul_le_mul_of_nonneg_left h1 (show 0 ≤ u * N ^ 2 by positivity)
  have h3 := mul_le_mul_of_nonneg_left h1 (show 0 ≤ u * N by positivity)
  have h4 : 0 ≤ u * N ^ 2 * e := by positivity
  have h5 : 0 ≤ u * N * e := by positivity
  have h6 : 0 ≤ u * B := by positivity
  unfold walkErr freeTol
  linarith

/-- The segment that is walked, and the true one. -/
theorem onSeg_cast (R : FairRay A sqrt val kept u B c x o p vo vp l l') {final : Fin 3 → F} {ve d : Fin 3 → ℚ} {q : ℚ} {range : Fl}
    (C : FairCast A val kept u s N B range o p final vo vp ve d q l) {τ : ℚ} (t0 : 0 ≤ τ) (t1 : τ ≤ 1) (a : Fin 3) :
    |onSeg vo (fun a => vo a + (ve a - vo a)) τ a - onSeg c.sensor (c.place x) (τ * q) a| ≤ 106 * (u * B) := by
  have hτq1 : τ * q ≤ 1 := mul_le_one₀ t1 C.q_pos.le C.q_le
  have h1 := onSeg_near R.near_o R.near_p (mul_nonneg t0 C.q_pos.le) hτq1 a
  have h2 : |onSeg vo (fun a => vo a + (ve a - vo a)) τ a - onSeg vo vp (τ * q) a| ≤ 60 * (u * B) := by
    have e1 : onSeg vo (fun a => vo a + (ve a - vo a)) τ a - onSeg vo vp (τ * q) a = τ * (ve a - onSeg vo vp q a) := by unfold onSeg; ring
    rw [e1, abs_mul, abs_of_nonneg t0]
    exact (mul_le_of_le_one_left (abs_nonneg _) t1).trans (C.near a)
  have h3 := abs_add_le (onSeg vo (fun a => vo a + (ve a - vo a)) τ a - onSeg vo vp (τ * q) a) (onSeg vo vp (τ * q) a - onSeg c.sensor (c.place x) (τ * q) a)
  rw [sub_add_sub_cancel] at h3
  linarith

theorem edge_index (hu : 0 ≤ u) (he : 0 < e) (hs : |s - e| ≤ u * e) {k : ℚ} (hk : 0 ≤ k) (hkN : k ≤ N) : |k * s - k * e| ≤ N * (u * e) := by
  rw [← mul_sub, abs_mul, abs_of_nonneg hk]
  exact mul_le_mul hkN hs (abs_nonneg _) (hk.trans hkN)

/-- Marks are made near the ray and before the range. -/
theorem ray_seen_near_fair (H : AccurateArith A sqrt val kept u η M) (W : FairWalk A sqrt val kept u η M) (S : Room u η M e B)
    (G : GridGiven val u e B g) (hcell : CellGiven val u e g) (V : WalkRoom u η M e B N g.dims)
    (R : FairRay A sqrt val kept u B c x o p vo vp l l') {range : F}
    (hr : (c.range = .pinf ∧ kept range = .pinf) ∨ ∃ r r', c.range = .fin r ∧ kept range = .fin r' ∧ 0 < r ∧ 0 ≤ r' ∧ |r' - r| ≤ u * r + η)
    (hst : kept range = val range) (hr0 : kept range ≠ .fin 0) {i0 : IVec} (hi0 : flIndex A g o = some i0)
    (hin : CellInGrid (axisCells g.dims) i0) {ms : List Mark} (h : flRaycast A g o p (flLength A sqrt o p) range = some ms) {m : Mark} (hm : m ∈ ms)
    (hmc : CellInGrid (axisCells g.dims) m.cell) : SeenNear (freeTol u e B N) e c.range c.sensor (c.place x) m.cell := by
  obtain ⟨s, hsv, hs⟩ := hcell
  have hu := S.u_nonneg; have he := S.e_pos; have hB := S.B_pos
  have huB := mul_nonneg hu hB.le
  obtain ⟨ve, d, q, C⟩ := fairCast H W S V hs R hr hst hr0
  have hcast := cast_of_ray hi0 hin h
  obtain ⟨i', f, hi', hf, -⟩ := flCastFrom_some _ _ hcast
  have Z := fairSetup H S G V hs R C hi0 hf hin
  obtain ⟨hM1, hM2⟩ := S.M_ten
  obtain ⟨τ, t0, t1, t2⟩ := (cast_marks_fair H W hu le_rfl Z (fun a => (C.ray_le a).trans (by linarith)) R.val_o C.ray C.ray_kept rfl hsv hi0 hf hcast).1 m hm
  have hτq0 := mul_nonneg t0 C.q_pos.le
  have htol := walkErr_tol S V hs
  have hN : 0 ≤ N := by linarith [V.N_ge]
  refine ⟨τ * q, hτq0, mul_le_one₀ t1 C.q_pos.le C.q_le, fun a => ?_, fun r h1 => ?_⟩
  · have h3 := abs_le.1 (onSeg_cast R C t0 t1 a)
    obtain ⟨h4, h5⟩ := t2 a
    have k0 : (0 : ℚ) ≤ m.cell a := by exact_mod_cast (hmc a).1
    have k1 : (m.cell a : ℚ) + 1 ≤ axisCells g.dims a := by exact_mod_cast (hmc a).2
    have k2 := V.dims a
    have h6 := abs_le.1 (edge_index (N := N) hu he hs k0 (by linarith))
    have h7 := abs_le.1 (edge_index (N := N) hu he hs (k := (m.cell a : ℚ) + 1) (by linarith) (by linarith))
    constructor <;> linarith
  · rw [distSq_onSeg]
    have h2 := C.short r h1
    have h3 : 0 ≤ l + 279 * (u * B) := by linarith [R.l_nonneg]
    have h4 : τ * q * (l + 279 * (u * B)) ≤ r + 300 * (u * B) := by
      rw [mul_assoc]
      exact (mul_le_of_le_one_left (mul_nonneg C.q_pos.le h3) t1).trans h2
    have h5 := mul_le_mul_of_nonneg_left R.upper (sq_nonneg (τ * q))
    rw [← mul_pow] at h5
    refine h5.trans (pow_le_pow_left₀ (mul_nonneg hτq0 h3) ?_ 2)
    have : 300 * (u * B) ≤ freeTol u e B N := by
      unfold freeTol
      have : 0 ≤ u * N ^ 2 * e := by positivity
      have : 0 ≤ u * N * e := by positivity
      linarith
    linarith

/-- Rays that pass a cell deeply before the range mark it. -/
theorem ray_seen_deep_fair (H : AccurateArith A sqrt val kept u η M) (W : FairWalk A sqrt val kept u η M) (S : Room u η M e B)
    (G : GridGiven val u e B g) (hcell : CellGiven val u e g) (V : WalkRoom u η M e B N g.dims)
    (R : FairRay A sqrt val kept u B c x o p vo vp l l') {range : F}
    (hr : (c.range = .pinf ∧ kept range = .pinf) ∨ ∃ r r', c.range = .fin r ∧ kept range = .fin r' ∧ 0 < r ∧ 0 ≤ r' ∧ |r' - r| ≤ u * r + η)
    (hst : kept range = val range) (hr0 : kept range ≠ .fin 0) {i0 : IVec} (hi0 : flIndex A g o = some i0)
    (hin : CellInGrid (axisCells g.dims) i0) {ms : List Mark} (h : flRaycast A g o p (flLength A sqrt o p) range = some ms) {i : IVec}
    (hi : CellInGrid (axisCells g.dims) i) (hseen : SeenDeep (freeTol u e B N) e c.range c.sensor (c.place x) i) :
    Mark.free i ∈ ms ∨ Mark.filled i ∈ ms := by
  obtain ⟨s, hsv, hs⟩ := hcell
  have hu := S.u_nonneg; have he := S.e_pos; have hB := S.B_pos
  have huB := mul_nonneg hu hB.le
  obtain ⟨ve, d, q, C⟩ := fairCast H W S V hs R hr hst hr0
  have hcast := cast_of_ray hi0 hin h
  obtain ⟨i', f, hi', hf, -⟩ := flCastFrom_some _ _ hcast
  have Z := fairSetup H S G V hs R C hi0 hf hin
  obtain ⟨hM1, hM2⟩ := S.M_ten
  obtain ⟨τ, t0, t1, t2, t3⟩ := hseen
  have htol := walkErr_tol S V hs
  have hN : 0 ≤ N := by linarith [V.N_ge]
  have h400 : 400 * (u * B) ≤ freeTol u e B N := by
    unfold freeTol
    have : 0 ≤ u * N ^ 2 * e := by positivity
    have : 0 ≤ u * N * e := by positivity
    linarith
  have hτq : τ ≤ q := by
    rcases hr with ⟨hcr, -⟩ | ⟨r, r', hcr, -, -, -, -⟩
    · rw [C.whole hcr]; exact t1
    · obtain ⟨w1, w2⟩ := t3 r hcr
      refine C.long r τ hcr t0 t1 ?_
      rw [distSq_onSeg] at w2
      rcases t0.eq_or_lt with ht | ht
      · rw [← ht, zero_mul]; linarith
      · set D := (r - freeTol u e B N) / τ with hD
        have hDτ : τ * D = r - freeTol u e B N := by rw [hD]; field_simp
        have hD0 : 0 ≤ D := div_nonneg (by linarith) ht.le
        have hdist : distSq c.sensor (c.place x) ≤ D ^ 2 := by
          rw [hD, div_pow, le_div_iff₀ (by positivity)]
          linarith
        rcases le_or_gt D (14 * B) with h1 | h1
        · have h2 := R.lower D hD0 h1 hdist
          have h3 := mul_le_mul_of_nonneg_left h2 t0
          rw [mul_add, hDτ] at h3
          have h4 := mul_le_mul_of_nonneg_right t1 (show 0 ≤ 268 * (u * B) by positivity)
          linarith
        · have h3 := mul_le_mul_of_nonneg_left (R.l_le.trans h1.le) t0
          linarith
  have hdeep : PassesDeep (32 * walkErr u s N) s vo (fun a => vo a + (ve a - vo a)) i := by
    refine ⟨τ / q, div_nonneg t0 C.q_pos.le, (div_le_one C.q_pos).2 hτq, fun a => ?_⟩
    have h3 := abs_le.1 (onSeg_cast R C (div_nonneg t0 C.q_pos.le) ((div_le_one C.q_pos).2 hτq) a)
    rw [div_mul_cancel₀ _ C.q_pos.ne'] at h3
    obtain ⟨h4, h5⟩ := t2 a
    have k0 : (0 : ℚ) ≤ i a := by exact_mod_cast (hi a).1
    have k1 : (i a : ℚ) + 1 ≤ axisCells g.dims a := by exact_mod_cast (hi a).2
    have k2 := V.dims a
    have h6 := abs_le.1 (edge_index (N := N) hu he hs k0 (by linarith))
    have h7 := abs_le.1 (edge_index (N := N) hu he hs (k := (i a : ℚ) + 1) (by linarith) (by linarith))
    constructor <;> linarith
  rcases (cast_marks_fair H W hu le_rfl Z (fun a => (C.ray_le a).trans (by linarith)) R.val_o C.ray C.ray_kept rfl hsv hi0 hf hcast).2 i hi hdeep with h1 | ⟨h1, -⟩
  · exact .inl h1
  · exact .inr h1

end

end VGT
