import Verif.Model.SDFQuery
import Mathlib.Tactic.Ring
import Mathlib.Tactic.Linarith
import Mathlib.Tactic.FieldSimp
import Mathlib.Tactic.FinCases
import Mathlib.Tactic.Positivity

/-!
One-dimensional interpolation and its composition to the trilinear estimate.
-/
set_option autoImplicit false

namespace VGT
open VGT.EDT

section
variable {K : Type} [Field K] [LinearOrder K] [IsStrictOrderedRing K] [FloorRing K]

/-- Interpolation of `f` along one axis with the cells the code picks. -/
def interp1 (s q : K) (n : ℕ) (f : ℤ → K) : K :=
  let x := axisIndices ⌊q / s⌋ n (q - ((⌊q / s⌋ : K) + 1 / 2) * s)
  f x.1 + (q - ((x.1 : K) + 1 / 2) * s) * ((f x.2 - f x.1) / s)

/-- What the code's choice of the two cells guarantees. -/
theorem axisIndices_spec (s q : K) (hs : 0 < s) (n : ℕ) (h0 : 0 ≤ ⌊q / s⌋) (hn : ⌊q / s⌋ < n) :
    ∃ b c : ℤ, axisIndices ⌊q / s⌋ n (q - ((⌊q / s⌋ : K) + 1 / 2) * s) = (b, c) ∧ 0 ≤ b ∧ c < n ∧
      ((n = 1 ∧ b = 0 ∧ c = 0) ∨
       (c = b + 1 ∧ (1 ≤ b → ((b : K) + 1 / 2) * s ≤ q) ∧ (b + 2 < n → q ≤ ((b : K) + 1 + 1 / 2) * s))) := by
  obtain ⟨i, hi⟩ : ∃ i, i = ⌊q / s⌋ := ⟨_, rfl⟩
  have h1 : (i : K) * s ≤ q := (le_div_iff₀ hs).1 (by rw [hi]; exact Int.floor_le _)
  have h2 : q < ((i : K) + 1) * s := (div_lt_iff₀ hs).1 (by rw [hi]; exact Int.lt_floor_add_one _)
  rw [← hi] at h0 hn ⊢
  unfold axisIndices
  split_ifs with ha hb hc hc hd
  · refine ⟨i, i, rfl, h0, hn, Or.inl ⟨by omega, by omega, by omega⟩⟩
  · refine ⟨i - 1, i, rfl, by omega, hn, Or.inr ⟨by omega, ?_, by omega⟩⟩
    intro _; push_cast; nlinarith
  · refine ⟨i, i + 1, rfl, h0, by omega, Or.inr ⟨rfl, ?_, ?_⟩⟩
    · intro _; linarith
    · intro _; nlinarith
  · refine ⟨i, i, rfl, h0, hn, Or.inl ⟨by omega, by omega, by omega⟩⟩
  · refine ⟨i, i + 1, rfl, h0, by omega, Or.inr ⟨rfl, by omega, ?_⟩⟩
    intro _; push Not at ha; nlinarith
  · refine ⟨i - 1, i, rfl, by omega, hn, Or.inr ⟨by omega, ?_, ?_⟩⟩
    · intro _; push_cast; nlinarith
    · intro _; push Not at ha; push_cast; linarith

/-- Value at a cell centre. -/
theorem interp1_centre (s : K) (hs : 0 < s) (n : ℕ) (k : ℤ) (h0 : 0 ≤ k) (hn : k < n) (f : ℤ → K) :
    interp1 s (((k : K) + 1 / 2) * s) n f = f k := by
  have hf : ⌊((k : K) + 1 / 2) * s / s⌋ = k := by
    rw [mul_div_assoc, div_self hs.ne', mul_one, Int.floor_eq_iff]
    constructor <;> linarith
  obtain ⟨b, c, hx, hb, hc, h⟩ := axisIndices_spec s (((k : K) + 1 / 2) * s) hs n (by rw [hf]; exact h0) (by rw [hf]; exact hn)
  unfold interp1
  simp only [hx]
  rcases h with ⟨h1, h2, h3⟩ | ⟨h1, h2, h3⟩
  · have : k = 0 := by omega
    subst this h2 h3; simp
  · subst h1
    have hk : k = b ∨ k = b + 1 := by
      by_contra hne
      rcases lt_or_ge k b with hlt | hge
      · have := h2 (by omega)
        have hkb : (k : K) + 1 ≤ b := by exact_mod_cast hlt
        nlinarith
      · have hlt : b + 2 ≤ k := by omega
        have := h3 (by omega)
        have hkb : (b : K) + 2 ≤ k := by exact_mod_cast hlt
        nlinarith
    rcases hk with rfl | rfl
    · simp
    · push_cast; field_simp; ring

/-- Between the outermost centres the value is a convex combination of near cells. -/
theorem interp1_between (s q : K) (hs : 0 < s) (n : ℕ) (h0 : 0 ≤ ⌊q / s⌋) (hn : ⌊q / s⌋ < n) (f : ℤ → K) (lo hi : K)
    (hq : n = 1 ∨ (s / 2 ≤ q ∧ q ≤ ((n : K) - 1 / 2) * s))
    (hf : ∀ k : ℤ, 0 ≤ k → k < n → |((k : K) + 1 / 2) * s - q| ≤ s → lo ≤ f k ∧ f k ≤ hi) :
    lo ≤ interp1 s q n f ∧ interp1 s q n f ≤ hi := by
  obtain ⟨b, c, hx, hb, hc, h⟩ := axisIndices_spec s q hs n h0 hn
  unfold interp1
  simp only [hx]
  rcases h with ⟨h1, h2, h3⟩ | ⟨h1, h2, h3⟩
  · subst h2 h3
    rw [sub_self, zero_div, mul_zero, add_zero]
    have hz : ⌊q / s⌋ = 0 := by omega
    rw [Int.floor_eq_iff, le_div_iff₀ hs, div_lt_iff₀ hs] at hz
    apply hf 0 le_rfl (by omega)
    push_cast at hz ⊢
    rw [abs_le]; constructor <;> linarith
  · subst h1
    have hq : s / 2 ≤ q ∧ q ≤ ((n : K) - 1 / 2) * s := hq.resolve_left (by omega)
    have hl : ((b : K) + 1 / 2) * s ≤ q := by
      rcases lt_or_ge b 1 with hb1 | hb1
      · have : b = 0 := by omega
        subst this; push_cast; linarith [hq.1]
      · exact h2 hb1
    have hu : q ≤ ((b : K) + 1 + 1 / 2) * s := by
      rcases lt_or_ge (b + 2) n with hb1 | hb1
      · exact h3 hb1
      · have hbn : (n : ℤ) = b + 2 := by omega
        have hbn' : (n : K) = (b : K) + 2 := by exact_mod_cast hbn
        have := hq.2
        rw [hbn'] at this
        linarith
    have e1 := hf b hb (by omega) (by rw [abs_le]; constructor <;> linarith)
    have e2 := hf (b + 1) (by omega) hc (by push_cast; rw [abs_le]; constructor <;> linarith)
    set w := (q - ((b : K) + 1 / 2) * s) / s with hw
    have hw0 : 0 ≤ w := div_nonneg (by linarith) hs.le
    have hw1 : w ≤ 1 := by rw [hw, div_le_one hs]; linarith
    have he : f b + (q - ((b : K) + 1 / 2) * s) * ((f (b + 1) - f b) / s) = f b + w * (f (b + 1) - f b) := by
      rw [hw]; ring
    rw [he]
    constructor <;> nlinarith

/-- Affine data are reproduced, also by the extrapolation at the edge. -/
theorem interp1_affine (s q : K) (hs : 0 < s) (n : ℕ) (h0 : 0 ≤ ⌊q / s⌋) (hn : ⌊q / s⌋ < n) (f : ℤ → K) (α β : K)
    (h1 : n = 1 → β = 0) (hf : ∀ k : ℤ, 0 ≤ k → k < n → f k = α + β * (((k : K) + 1 / 2) * s)) :
    interp1 s q n f = α + β * q := by
  obtain ⟨b, c, hx, hb, hc, h⟩ := axisIndices_spec s q hs n h0 hn
  unfold interp1
  simp only [hx]
  rcases h with ⟨e1, e2, e3⟩ | ⟨e1, e2, e3⟩
  · rw [e2, e3, hf 0 le_rfl (by omega), h1 e1]; ring
  · rw [e1, hf b hb (by omega), hf (b + 1) (by omega) (by omega)]
    push_cast; field_simp; ring

/-- A continuous piecewise linear function in hinge form. -/
def hinge (f : ℤ → K) : ℕ → K → K
  | 0, u => f 0 + u * (f 1 - f 0)
  | m + 1, u => hinge f m u + max 0 (u - ((m : K) + 1)) * (f (m + 2) - 2 * f (m + 1) + f m)

theorem hinge_eq (f : ℤ → K) (m : ℕ) (u : K) (b : ℕ) (hb : b ≤ m) (h1 : 1 ≤ b → (b : K) ≤ u) (h2 : b < m → u ≤ (b : K) + 1) :
    hinge f m u = f b + (u - b) * (f (b + 1) - f b) := by
  induction m generalizing b with
  | zero =>
    have : b = 0 := by omega
    subst this; simp [hinge]
  | succ m ih =>
    unfold hinge
    rcases Nat.lt_or_ge b (m + 1) with hlt | hge
    · rw [ih b (by omega) h1 (fun _ => h2 (by omega)), max_eq_left, zero_mul, add_zero]
      have := h2 hlt
      have hbm : (b : K) ≤ m := by exact_mod_cast (by omega : b ≤ m)
      linarith
    · have hbm : b = m + 1 := by omega
      subst hbm
      have hu := h1 (by omega)
      push_cast at hu
      rw [ih m le_rfl (fun _ => by linarith) (by omega), max_eq_right (by linarith)]
      push_cast
      ring_nf

theorem interp1_hinge (s q : K) (hs : 0 < s) (n : ℕ) (h0 : 0 ≤ ⌊q / s⌋) (hn : ⌊q / s⌋ < n) (f : ℤ → K) :
    interp1 s q n f = if n = 1 then f 0 else hinge f (n - 2) (q / s - 1 / 2) := by
  obtain ⟨b, c, hx, hb, hc, h⟩ := axisIndices_spec s q hs n h0 hn
  unfold interp1
  simp only [hx]
  rcases h with ⟨e1, e2, e3⟩ | ⟨e1, e2, e3⟩
  · rw [e2, e3, if_pos e1]; simp
  · rw [if_neg (by omega)]
    obtain ⟨b, rfl⟩ := Int.eq_ofNat_of_zero_le hb
    rw [hinge_eq f (n - 2) (q / s - 1 / 2) b (by omega), e1]
    · push_cast; field_simp; ring
    · intro h
      have := e2 (by omega)
      rw [Int.cast_natCast, ← le_div_iff₀ hs] at this
      linarith
    · intro h
      have := e3 (by omega)
      rw [Int.cast_natCast, ← div_le_iff₀ hs] at this
      linarith

/-! ### The estimate as three nested one-dimensional interpolations -/

theorem inGrid_axis {d : Dims} {i : IVec} : inGrid d i = true ↔ ∀ a, 0 ≤ i a ∧ i a < axisCells d a := by
  unfold inGrid
  rw [decide_eq_true_iff]
  constructor
  · rintro ⟨h1, h2, h3, h4, h5, h6⟩ a
    fin_cases a
    · exact ⟨h1, h2⟩
    · exact ⟨h3, h4⟩
    · exact ⟨h5, h6⟩
  · intro h
    exact ⟨(h 0).1, (h 0).2, (h 1).1, (h 1).2, (h 2).1, (h 2).2⟩

theorem get_inGrid (g : SDFGrid K) {i : IVec} (h : inGrid g.dims i = true) :
    g.get i = some (g.data ((i 0).toNat, (i 1).toNat, (i 2).toNat)) := by
  have h' := of_decide_eq_true h
  unfold SDFGrid.get getImm IVec.toIdx
  rw [if_pos ⟨h'.1, h'.2.1, h'.2.2.1, h'.2.2.2.1, h'.2.2.2.2.1, h'.2.2.2.2.2⟩]

/-- The boundary-corrected value of a cell, as a total function. -/
def SDFGrid.cval (g : SDFGrid K) (x y z : ℤ) : K :=
  let d := g.data (x.toNat, y.toNat, z.toNat)
  if 0 ≤ d then d - g.s / 2 else d + g.s / 2

theorem corrected_inGrid (g : SDFGrid K) {x y z : ℤ} (hx : 0 ≤ x ∧ x < g.dims.nx) (hy : 0 ≤ y ∧ y < g.dims.ny)
    (hz : 0 ≤ z ∧ z < g.dims.nz) : g.corrected ![x, y, z] = some (g.cval x y z) := by
  have h : inGrid g.dims ![x, y, z] = true := inGrid_axis.2 (by
    intro a; fin_cases a
    · exact hx
    · exact hy
    · exact hz)
  unfold SDFGrid.corrected
  rw [get_inGrid g h]
  unfold SDFGrid.cval
  simp only [Option.map_some, mul_one_div]
  rfl

theorem estimate_eq (g : SDFGrid K) (hs : 0 < g.s) (loc : Vec4 K) (h : inGrid g.dims (g.indexOf loc) = true) :
    g.estimate loc = some (some (interp1 g.s ((g.pose.applyInv loc).v 2) g.dims.nz fun z =>
      interp1 g.s ((g.pose.applyInv loc).v 1) g.dims.ny fun y =>
        interp1 g.s ((g.pose.applyInv loc).v 0) g.dims.nx fun x => g.cval x y z)) := by
  have hg := inGrid_axis.1 h
  unfold SDFGrid.estimate SDFGrid.interpolate
  rw [if_pos h]
  unfold SDFGrid.indexOf cellOf at hg ⊢
  generalize (g.pose.applyInv loc).v = q at hg ⊢
  simp only [centre]
  obtain ⟨bx, cx, ex, hx0, hx1, hx2⟩ := axisIndices_spec g.s (q 0) hs g.dims.nx (hg 0).1 (hg 0).2
  obtain ⟨by', cy, ey, hy0, hy1, hy2⟩ := axisIndices_spec g.s (q 1) hs g.dims.ny (hg 1).1 (hg 1).2
  obtain ⟨bz, cz, ez, hz0, hz1, hz2⟩ := axisIndices_spec g.s (q 2) hs g.dims.nz (hg 2).1 (hg 2).2
  unfold interp1
  rw [ex, ey, ez]
  have hbx : 0 ≤ bx ∧ bx < g.dims.nx := by omega
  have hcx : 0 ≤ cx ∧ cx < g.dims.nx := by omega
  have hby : 0 ≤ by' ∧ by' < g.dims.ny := by omega
  have hcy : 0 ≤ cy ∧ cy < g.dims.ny := by omega
  have hbz : 0 ≤ bz ∧ bz < g.dims.nz := by omega
  have hcz : 0 ≤ cz ∧ cz < g.dims.nz := by omega
  simp only [corrected_inGrid g hbx hby hbz, corrected_inGrid g hbx hby hcz, corrected_inGrid g hbx hcy hbz,
    corrected_inGrid g hbx hcy hcz, corrected_inGrid g hcx hby hbz, corrected_inGrid g hcx hby hcz,
    corrected_inGrid g hcx hcy hbz, corrected_inGrid g hcx hcy hcz, Option.bind_some, Option.map_some]
  unfold trilinear
  simp only [centre, Matrix.cons_val_zero, Matrix.cons_val_one, Matrix.cons_val, add_sub_cancel_left]

theorem estimate_out (g : SDFGrid K) (loc : Vec4 K) (h : inGrid g.dims (g.indexOf loc) = false) :
    g.estimate loc = some none := by
  unfold SDFGrid.estimate
  rw [h]; rfl

/-- The estimate never throws. -/
theorem estimate_some (g : SDFGrid K) (hs : 0 < g.s) (loc : Vec4 K) : ∃ r, g.estimate loc = some r := by
  rcases h : inGrid g.dims (g.indexOf loc) with _ | _
  · exact ⟨_, estimate_out g loc h⟩
  · exact ⟨_, estimate_eq g hs loc h⟩

theorem applyInv_apply (P : Pose K) (hP : P.Valid) (x : Vec4 K) : P.applyInv (P.apply x) = x := by
  obtain ⟨v, w⟩ := x
  unfold Pose.applyInv Pose.apply
  simp only [Vec4.mk.injEq, and_true]
  funext a
  have h0 := hP.1 a 0
  have h1 := hP.1 a 1
  have h2 := hP.1 a 2
  have e : ∀ c : K, c = (if a = 0 then 1 else 0) * v 0 + (if a = 1 then 1 else 0) * v 1 + (if a = 2 then 1 else 0) * v 2 → c = v a := by
    intro c hc; rw [hc]; fin_cases a <;> simp
  apply e
  rw [← h0, ← h1, ← h2]
  ring

theorem apply_applyInv (P : Pose K) (hP : P.Valid) (x : Vec4 K) : P.apply (P.applyInv x) = x := by
  obtain ⟨v, w⟩ := x
  unfold Pose.applyInv Pose.apply
  simp only [Vec4.mk.injEq, and_true]
  funext a
  have h0 := hP.2 a 0
  have h1 := hP.2 a 1
  have h2 := hP.2 a 2
  have e : ∀ c : K, c = (if a = 0 then 1 else 0) * (v 0 - P.t 0 * w) + (if a = 1 then 1 else 0) * (v 1 - P.t 1 * w) +
      (if a = 2 then 1 else 0) * (v 2 - P.t 2 * w) + P.t a * w → c = v a := by
    intro c hc; rw [hc]; fin_cases a <;> simp
  apply e
  rw [← h0, ← h1, ← h2]
  ring

end
end VGT
