import Verif.Lemmas.FairQuery

/-!
C86: cell centres and interpolation in any accurate arithmetic.
-/
set_option autoImplicit false

namespace VGT
open VGT.EDT VGT.Spec

namespace Spec.FairRoom
variable {u η s N : ℝ}

theorem u_le (hr : FairRoom u η s N) : u ≤ u * N := le_mul_of_one_le_right hr.u0 hr.one_le
theorem k0 (hr : FairRoom u η s N) : 0 ≤ u * N := hr.u0.trans hr.u_le
theorem u_small (hr : FairRoom u η s N) : u ≤ 1 / 10 ^ 5 := hr.u_le.trans hr.small

theorem big (hr : FairRoom u η s N) {B B' : ℝ} (h : η ≤ u * B) (hB : B ≤ B') : η ≤ u * B' := h.trans (mul_le_mul_of_nonneg_left hB hr.u0)

theorem eta_one (hr : FairRoom u η s N) : η ≤ u * 1 := by rw [mul_one]; exact hr.eta

theorem eta_s2 (hr : FairRoom u η s N) : η ≤ u * s ^ 2 := by
  rcases le_total s 1 with hs1 | hs1
  · exact hr.big hr.eta_s3 (pow_le_pow_of_le_one hr.s0.le hs1 (by norm_num))
  · exact hr.big hr.eta_one (one_le_pow₀ hs1)

theorem eta_i2 (hr : FairRoom u η s N) : η ≤ u * (1 / s ^ 2) := by rw [mul_one_div]; exact hr.eta_is

theorem eta_i (hr : FairRoom u η s N) : η ≤ u * (1 / s) := by
  have hs := hr.s0
  rcases le_total s 1 with hs1 | hs1
  · exact hr.big hr.eta_one (by rw [le_div_iff₀ hs]; linarith)
  · refine hr.big hr.eta_i2 (one_div_le_one_div_of_le hs ?_)
    nlinarith

theorem eta_N (hr : FairRoom u η s N) : η ≤ u * N := hr.eta.trans hr.u_le

theorem eta_Ns (hr : FairRoom u η s N) : η ≤ u * (N * s) := hr.big hr.eta_s (by nlinarith [hr.one_le, hr.s0])

end Spec.FairRoom

section
variable {F : Type} {A : QueryArith F} {val kept : F → ℝ} {u η s N : ℝ}

/-- The computed cell centre. -/
theorem Spec.FairQuery.centre_near (h : FairQuery A val kept u η) (hr : FairRoom u η s N) {S : F} (hS : val S = s) {j : ℤ} (hj : |(j : ℝ)| ≤ N) :
    Near u 15 ((N + 1 / 2) * s) (val (A.mul (A.add (A.ofInt j) A.half) S)) (((j : ℝ) + 1 / 2) * s) := by
  have hs := hr.s0
  have hN := hr.one_le
  have p0 : Near u 2 N (val (A.ofInt j)) j := by
    refine ⟨hj, ?_⟩
    have h1 := h.ofInt j
    have h2 := mul_le_mul_of_nonneg_left hj hr.u0
    have h3 := hr.eta_N
    linarith
  have ph : Near u 0 (1 / 2) (val A.half) (1 / 2) := by
    rw [h.half]
    exact Near.exact (by rw [abs_of_pos (by norm_num)])
  have ps : Near u 0 s (val S) s := by
    rw [hS]
    exact Near.exact (by rw [abs_of_pos hs])
  have p1 := h.add_near hr.u0 le_rfl hr.u_small p0 ph (hr.big hr.eta_N (by linarith)) (by norm_num) (by norm_num) le_rfl (by norm_num)
  have p2 := h.mul_near hr.u0 le_rfl hr.u_small p1 ps (hr.big hr.eta_N (by linarith)) hr.eta_s
    (hr.big hr.eta_Ns (by nlinarith)) (by norm_num) le_rfl (by norm_num) (by norm_num)
  exact p2.mono hr.u0 (by norm_num)

/-- The computed upper corner. -/
theorem Spec.FairQuery.upper_near (h : FairQuery A val kept u η) (hr : FairRoom u η s N) {S c : F} (hS : val S = s) {j : ℝ}
    (hc : Near u 15 ((N + 1 / 2) * s) (val c) ((j + 1 / 2) * s)) : Near u 18 ((N + 3 / 2) * s) (val (A.add c S)) ((j + 3 / 2) * s) := by
  have hs := hr.s0
  have hN := hr.one_le
  have ps : Near u 0 s (val S) s := by
    rw [hS]
    exact Near.exact (by rw [abs_of_pos hs])
  have p1 := h.add_near hr.u0 le_rfl hr.u_small hc ps (hr.big hr.eta_s (by nlinarith)) (by norm_num) (by norm_num) le_rfl (by norm_num)
  rw [show (j + 1 / 2) * s + s = (j + 3 / 2) * s by ring, show (N + 1 / 2) * s + s = (N + 3 / 2) * s by ring] at p1
  exact p1.mono hr.u0 (by norm_num)

/-- From the size of the grid to the size of a cell. -/
theorem Near.toCell {k B k' B' x y : ℝ} (h : Near u k B x y) (hy : |y| ≤ B') (hk : k * u * B ≤ k' * (u * N) * B') : Near (u * N) k' B' x y :=
  ⟨hy, h.2.trans hk⟩

variable {lo hi q : F} {j w : ℝ}

theorem Spec.FairQuery.offset_near (h : FairQuery A val kept u η) (hr : FairRoom u η s N) (hl : Near u 15 ((N + 1 / 2) * s) (val lo) ((j + 1 / 2) * s))
    (hq : val q = (j + 1 / 2 + w) * s) (hqN : |val q| ≤ 2 * N * s) (hw : |w| ≤ 2) : Near (u * N) 32 (2 * s) (val (A.sub q lo)) (w * s) := by
  have hs := hr.s0
  have hN := hr.one_le
  have hNs := hr.eta_Ns
  have pq : Near u 15 (2 * N * s) (val q) (val q) := (Near.exact hqN).mono hr.u0 (by norm_num)
  have p := h.sub_near hr.u0 le_rfl hr.u_small pq hl (hr.big hNs (by nlinarith)) (by norm_num) (by norm_num)
  rw [hq, show (j + 1 / 2 + w) * s - (j + 1 / 2) * s = w * s by ring] at p
  refine p.toCell (by rw [abs_mul, abs_of_pos hs]; exact mul_le_mul_of_nonneg_right hw hs.le) ?_
  have e1 : u * s ≤ u * N * s := mul_le_mul_of_nonneg_right hr.u_le hs.le
  nlinarith [mul_nonneg hr.k0 hs.le]

theorem Spec.FairQuery.edge_near (h : FairQuery A val kept u η) (hr : FairRoom u η s N) (hl : Near u 15 ((N + 1 / 2) * s) (val lo) ((j + 1 / 2) * s))
    (hh : Near u 18 ((N + 3 / 2) * s) (val hi) ((j + 3 / 2) * s)) : Near (u * N) 84 s (val (A.sub hi lo)) s := by
  have hs := hr.s0
  have hN := hr.one_le
  have hNs := hr.eta_Ns
  have p := h.sub_near hr.u0 le_rfl hr.u_small hh (hl.mono hr.u0 (by norm_num)) (hr.big hNs (by nlinarith)) (by norm_num) (by norm_num)
  rw [show (j + 3 / 2) * s - (j + 1 / 2) * s = s by ring] at p
  refine p.toCell (by rw [abs_of_pos hs]) ?_
  have e1 : u * s ≤ u * N * s := mul_le_mul_of_nonneg_right hr.u_le hs.le
  nlinarith [mul_nonneg hr.k0 hs.le]

theorem Spec.FairQuery.rest_near (h : FairQuery A val kept u η) (hr : FairRoom u η s N) (hh : Near u 18 ((N + 3 / 2) * s) (val hi) ((j + 3 / 2) * s))
    (hq : val q = (j + 1 / 2 + w) * s) (hqN : |val q| ≤ 2 * N * s) (hw : |1 - w| ≤ 2) : Near (u * N) 48 (2 * s) (val (A.sub hi q)) ((1 - w) * s) := by
  have hs := hr.s0
  have hN := hr.one_le
  have hNs := hr.eta_Ns
  have pq : Near u 18 (2 * N * s) (val q) (val q) := (Near.exact hqN).mono hr.u0 (by norm_num)
  have p := h.sub_near hr.u0 le_rfl hr.u_small hh pq (hr.big hNs (by nlinarith)) (by norm_num) (by norm_num)
  rw [hq, show (j + 3 / 2) * s - (j + 1 / 2 + w) * s = (1 - w) * s by ring] at p
  refine p.toCell (by rw [abs_mul, abs_of_pos hs]; exact mul_le_mul_of_nonneg_right hw hs.le) ?_
  have e1 : u * s ≤ u * N * s := mul_le_mul_of_nonneg_right hr.u_le hs.le
  nlinarith [mul_nonneg hr.k0 hs.le]

/-- One step of the first formula. -/
theorem Spec.FairQuery.lerp_near (h : FairQuery A val kept u η) (hr : FairRoom u η s N) {a b vl vh : F} {k V yl yh : ℝ}
    (ha : Near (u * N) 32 (2 * s) (val a) (w * s)) (hb : Near (u * N) 84 s (val b) s) (hw : -1 ≤ w ∧ w ≤ 2) (hV : s ≤ V)
    (hl : Near (u * N) k V (val vl) yl) (hh : Near (u * N) k V (val vh) yh) (hk : 0 ≤ k) (hk' : k ≤ 700) :
    Near (u * N) (5 / 3 * (k + 144)) (3 * V) (val (A.add vl (A.mul a (A.div (A.sub vh vl) b)))) (yl + w * (yh - yl)) := by
  have hs := hr.s0
  have hVpos : 0 < V := lt_of_lt_of_le hs hV
  have eV : η ≤ u * V := hr.big hr.eta_s hV
  have hVs : 1 ≤ V / s := by rwa [le_div_iff₀ hs, one_mul]
  have e2 : (V + V) / s = 2 * (V / s) := by ring
  have e3 : 2 * s * ((V + V) / s) = 4 * V := by field_simp; norm_num
  have d := h.sub_near hr.u0 hr.u_le hr.small hh hl (hr.big eV (by linarith)) hk (by linarith)
  have sl := h.div_near hr.u0 hr.u_le hr.small d hb hs (hr.big eV (by linarith)) hr.eta_s (hr.big hr.eta_one (by rw [e2]; linarith))
    (by linarith) (by norm_num) (by linarith) (by norm_num)
  have sl' := sl.mono (k' := k + 99) hr.k0 (by nlinarith)
  have m := h.mul_near hr.u0 hr.u_le hr.small ha sl' (hr.big hr.eta_s (by linarith)) (hr.big hr.eta_one (by rw [e2]; linarith))
    (hr.big eV (by rw [e3]; linarith)) (by norm_num) (by linarith) (by norm_num) (by linarith)
  rw [e3, show w * s * ((yh - yl) / s) = w * (yh - yl) by field_simp] at m
  have m' := m.mono (k' := k + 141) hr.k0 (by nlinarith)
  have t := h.add_near hr.u0 hr.u_le hr.small (hl.mono hr.k0 (by linarith : k ≤ k + 141)) m' (hr.big eV (by linarith)) (by linarith) le_rfl (by linarith)
    (by linarith)
  refine ⟨lerp_bound hw hl.1 hh.1, t.2.trans (le_of_eq ?_)⟩
  ring

/-- The first formula. -/
theorem Spec.FairQuery.trilinear_near (h : FairQuery A val kept u η) (hr : FairRoom u η s N) {lo hi q : Fin 3 → F} {j w : Fin 3 → ℝ}
    {v : Bool → Bool → Bool → F} {V : ℝ} (hl : ∀ a, Near u 15 ((N + 1 / 2) * s) (val (lo a)) ((j a + 1 / 2) * s))
    (hh : ∀ a, Near u 18 ((N + 3 / 2) * s) (val (hi a)) ((j a + 3 / 2) * s)) (hq : ∀ a, val (q a) = (j a + 1 / 2 + w a) * s)
    (hqN : ∀ a, |val (q a)| ≤ 2 * N * s) (hw : ∀ a, -1 ≤ w a ∧ w a ≤ 2) (hV : s ≤ V) (hv : ∀ x y z, |val (v x y z)| ≤ V) :
    |kept (flTrilinear A.toArith lo hi v q) - triB w (fun x y z => val (v x y z))| ≤ 39000 * (u * N) * V := by
  have hs := hr.s0
  have hw2 : ∀ a, |w a| ≤ 2 := fun a => abs_le.2 ⟨by linarith [(hw a).1], (hw a).2⟩
  have off := fun a => h.offset_near hr (hl a) (hq a) (hqN a) (hw2 a)
  have ed := fun a => h.edge_near hr (hl a) (hh a)
  have l0 := fun y z => h.lerp_near hr (off 0) (ed 0) (hw 0) hV (Near.exact (hv false y z)) (Near.exact (hv true y z)) le_rfl (by norm_num)
  have l1 := fun z => h.lerp_near hr (off 1) (ed 1) (hw 1) (V := 3 * V) (by linarith) (l0 false z) (l0 true z) (by norm_num) (by norm_num)
  have l2 := h.lerp_near hr (off 2) (ed 2) (hw 2) (V := 3 * (3 * V)) (by linarith) (l1 false) (l1 true) (by norm_num) (by norm_num)
  have fin := h.kept_near hr.u0 hr.u_le hr.small l2 (hr.big hr.eta_s (by linarith)) (by norm_num) (by norm_num)
  refine fin.2.trans ?_
  have := mul_nonneg hr.k0 (hs.le.trans hV)
  linarith

set_option maxHeartbeats 400000 in
/-- The second formula. -/
theorem Spec.FairQuery.bilinear_near (h : FairQuery A val kept u η) (hr : FairRoom u η s N) {lo hi q : Fin 3 → F} {j w : Fin 3 → ℝ}
    {v : Bool → Bool → Bool → F} {V : ℝ} (hl : ∀ a, Near u 15 ((N + 1 / 2) * s) (val (lo a)) ((j a + 1 / 2) * s))
    (hh : ∀ a, Near u 18 ((N + 3 / 2) * s) (val (hi a)) ((j a + 3 / 2) * s)) (hq : ∀ a, val (q a) = (j a + 1 / 2 + w a) * s)
    (hqN : ∀ a, |val (q a)| ≤ 2 * N * s) (hw : ∀ a, -1 ≤ w a ∧ w a ≤ 2) (hV : s ≤ V) (hv : ∀ x y z, |val (v x y z)| ≤ V) :
    |kept (flBilinear A.toArith lo hi v q) - triB w (fun x y z => val (v x y z))| ≤ 39000 * (u * N) * V := by
  have hs := hr.s0
  have hk := hr.k0
  have hVpos : 0 < V := lt_of_lt_of_le hs hV
  have hVs0 : 0 < V / s := by positivity
  have s2V : 0 < s ^ 2 * V := by positivity
  have sV : 0 < s * V := by positivity
  have hw2 : ∀ a, |w a| ≤ 2 := fun a => abs_le.2 ⟨by linarith [(hw a).1], (hw a).2⟩
  have hw3 : ∀ a, |1 - w a| ≤ 2 := fun a => abs_le.2 ⟨by linarith [(hw a).2], by linarith [(hw a).1]⟩
  have off := fun a => h.offset_near hr (hl a) (hq a) (hqN a) (hw2 a)
  have ed := fun a => h.edge_near hr (hl a) (hh a)
  have re := fun a => h.rest_near hr (hh a) (hq a) (hqN a) (hw3 a)
  have eV : η ≤ u * V := hr.big hr.eta_s hV
  have esV : η ≤ u * (s * V) := hr.big hr.eta_s2 (by rw [sq]; exact mul_le_mul_of_nonneg_left hV hs.le)
  have es2V : η ≤ u * (s ^ 2 * V) := hr.big hr.eta_s3 (by rw [pow_succ]; exact mul_le_mul_of_nonneg_left hV (sq_nonneg s))
  have eVs : η ≤ u * (V / s) := hr.big hr.eta_one (by rwa [le_div_iff₀ hs, one_mul])
  have e2s : η ≤ u * (2 * s) := hr.big hr.eta_s (by linarith)
  have es2 := hr.eta_s2
  have ei := hr.eta_i
  have ei2 := hr.eta_i2
  -- rows
  have row : ∀ y z, Near (u * N) 61 (4 * (s * V)) (val (A.add (A.mul (A.sub (hi 0) (q 0)) (v false y z)) (A.mul (A.sub (q 0) (lo 0)) (v true y z))))
      ((1 - w 0) * s * val (v false y z) + w 0 * s * val (v true y z)) := by
    intro y z
    have p1 := h.mul_near hr.u0 hr.u_le hr.small (re 0) (Near.exact (hv false y z)) e2s eV (hr.big esV (by linarith)) (by norm_num) le_rfl
      (by norm_num) (by norm_num)
    have p2 := h.mul_near hr.u0 hr.u_le hr.small (off 0) (Near.exact (hv true y z)) e2s eV (hr.big esV (by linarith)) (by norm_num) le_rfl
      (by norm_num) (by norm_num)
    have p3 := h.add_near hr.u0 hr.u_le hr.small p1 p2 (hr.big esV (by linarith)) (by norm_num) (by norm_num) (by norm_num) (by norm_num)
    rw [show 2 * s * V + 2 * s * V = 4 * (s * V) by ring] at p3
    exact p3.mono hk (by norm_num)
  -- area
  have pone : Near (u * N) 0 1 (val A.one) 1 := by
    rw [h.one]
    exact Near.exact (by rw [abs_one])
  have area := h.mul_near hr.u0 hr.u_le hr.small (ed 0) (ed 1) hr.eta_s hr.eta_s (hr.big es2 (by rw [sq])) (by norm_num) (by norm_num) (by norm_num)
    (by norm_num)
  rw [show s * s = s ^ 2 by ring] at area
  have iarea := h.div_near hr.u0 hr.u_le hr.small pone area (by positivity) hr.eta_one es2 ei2 le_rfl (by norm_num) (by norm_num) (by norm_num)
  have iarea' := iarea.mono (k' := 190) hk (by norm_num)
  obtain ⟨P, hP⟩ : ∃ P : Bool → F, P = fun z => A.mul (A.div A.one (A.mul (A.sub (hi 0) (lo 0)) (A.sub (hi 1) (lo 1))))
      (A.add (A.mul (A.add (A.mul (A.sub (hi 0) (q 0)) (v false false z)) (A.mul (A.sub (q 0) (lo 0)) (v true false z))) (A.sub (hi 1) (q 1)))
        (A.mul (A.add (A.mul (A.sub (hi 0) (q 0)) (v false true z)) (A.mul (A.sub (q 0) (lo 0)) (v true true z))) (A.sub (q 1) (lo 1)))) := ⟨_, rfl⟩
  obtain ⟨X, hX⟩ : ∃ X : Bool → ℝ, X = fun z => (1 - w 1) * ((1 - w 0) * val (v false false z) + w 0 * val (v true false z)) +
      w 1 * ((1 - w 0) * val (v false true z) + w 0 * val (v true true z)) := ⟨_, rfl⟩
  have plane : ∀ z, Near (u * N) 325 (16 * V) (val (P z)) (X z) := by
    intro z
    have p1 := h.mul_near hr.u0 hr.u_le hr.small (row false z) (re 1) (hr.big esV (by linarith)) e2s (hr.big es2V (by nlinarith)) (by norm_num)
      (by norm_num) (by norm_num) (by norm_num)
    have p2 := h.mul_near hr.u0 hr.u_le hr.small (row true z) (off 1) (hr.big esV (by linarith)) e2s (hr.big es2V (by nlinarith)) (by norm_num)
      (by norm_num) (by norm_num) (by norm_num)
    have p3 := h.add_near hr.u0 hr.u_le hr.small p1 p2 (hr.big es2V (by nlinarith)) (by norm_num) (by norm_num) (by norm_num) (by norm_num)
    rw [show 4 * (s * V) * (2 * s) + 4 * (s * V) * (2 * s) = 16 * (s ^ 2 * V) by ring] at p3
    have e2 : 1 / s ^ 2 * (16 * (s ^ 2 * V)) = 16 * V := by field_simp
    have p5 := h.mul_near hr.u0 hr.u_le hr.small iarea' p3 ei2 (hr.big es2V (by linarith)) (hr.big eV (by rw [e2]; linarith)) (by norm_num)
      (by norm_num) (by norm_num) (by norm_num)
    rw [e2] at p5
    have p6 := p5.mono hk (k' := 325) (by norm_num)
    have e3 : 1 / s ^ 2 * (((1 - w 0) * s * val (v false false z) + w 0 * s * val (v true false z)) * ((1 - w 1) * s) +
        ((1 - w 0) * s * val (v false true z) + w 0 * s * val (v true true z)) * (w 1 * s)) = X z := by
      rw [hX]
      field_simp
    rw [e3] at p6
    rw [hP]
    exact p6
  have i2 := h.div_near hr.u0 hr.u_le hr.small pone (ed 2) hs hr.eta_one hr.eta_s ei le_rfl (by norm_num) (by norm_num) (by norm_num)
  have d := h.sub_near hr.u0 hr.u_le hr.small (plane true) (plane false) (hr.big eV (by linarith)) (by norm_num) (by norm_num)
  have e5 : (16 * V + 16 * V) * (1 / s) = 32 * (V / s) := by ring
  have m1 := h.mul_near hr.u0 hr.u_le hr.small d i2 (hr.big eV (by linarith)) ei (hr.big eVs (by rw [e5]; linarith)) (by norm_num) (by norm_num)
    (by norm_num) (by norm_num)
  have e4 : (16 * V + 16 * V) * (1 / s) * (2 * s) = 64 * V := by field_simp; norm_num
  have m2 := h.mul_near hr.u0 hr.u_le hr.small m1 (off 2) (hr.big eVs (by rw [e5]; linarith)) e2s (hr.big eV (by rw [e4]; linarith)) (by norm_num)
    (by norm_num) (by norm_num) (by norm_num)
  rw [e4, show (X true - X false) * (1 / s) * (w 2 * s) = w 2 * (X true - X false) by field_simp] at m2
  have m3 := h.add_near hr.u0 hr.u_le hr.small ((plane false).mono hk (k' := 475) (by norm_num)) (m2.mono hk (k' := 475) (by norm_num))
    (hr.big eV (by linarith)) (by norm_num) le_rfl (by norm_num) (by norm_num)
  have fin := h.kept_near hr.u0 hr.u_le hr.small m3 (hr.big eV (by linarith)) (by norm_num) (by norm_num)
  have e6 : flBilinear A.toArith lo hi v q =
      A.add (P false) (A.mul (A.mul (A.sub (P true) (P false)) (A.div A.one (A.sub (hi 2) (lo 2)))) (A.sub (q 2) (lo 2))) := by
    rw [hP]; rfl
  have e7 : triB w (fun x y z => val (v x y z)) = X false + w 2 * (X true - X false) := by
    rw [hX]; unfold triB; dsimp only; ring
  rw [e6, e7]
  refine fin.2.trans ?_
  have := mul_nonneg hr.k0 hVpos.le
  linarith

end

end VGT
